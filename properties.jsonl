{"id": "C01", "title": "Grid box text round trip", "statement": "Writing a cell box as simulator text (1-based, I J K order, min max pairs) and parsing the words back yields the original 0-based KJI box, for every box with min <= max on each axis; parsing any text whose min exceeds its max is rejected.", "quantifier": "all boxes (six integers) and all six-word inputs", "why_tests_cant": "Six unbounded integers with an order reversal and an off-by-one in each direction; finitely many boxes cannot exclude a swapped axis that happens to coincide.", "anchors": ["resqpy/olio/box_utilities.py::string_iijjkk1_for_box_kji0", "resqpy/olio/box_utilities.py::box_kji0_from_words_iijjkk1", "resqpy/olio/box_utilities.py::spaced_string_iijjkk1_for_box_kji0"]}
{"id": "C02", "title": "Local box cell numbering is a bijection", "statement": "Converting a cell of the parent grid to box-local numbering and back returns the same cell; a parent cell has a local number exactly when it is inside the box; the number of distinct cells in a box equals the reported volume.", "quantifier": "all boxes, all cells", "why_tests_cant": "Must hold for every integer triple and every box, including degenerate ones.", "anchors": ["resqpy/olio/box_utilities.py::local_box_cell_from_parent_cell", "resqpy/olio/box_utilities.py::parent_cell_from_local_box_cell", "resqpy/olio/box_utilities.py::cell_in_box", "resqpy/olio/box_utilities.py::volume_of_box", "resqpy/olio/box_utilities.py::extent_of_box"]}
{"id": "C03", "title": "Box overlap and union", "statement": "Two boxes are reported as overlapping exactly when some cell is in both; the union of two boxes contains both boxes and is contained in every box which contains both.", "quantifier": "all pairs of valid boxes", "why_tests_cant": "Quantifies over all cells and all enclosing boxes.", "anchors": ["resqpy/olio/box_utilities.py::boxes_overlap", "resqpy/olio/box_utilities.py::union"]}
{"id": "C04", "title": "Trimming an overlapping box", "statement": "When two boxes overlap, the trim box offered for the new box covers every cell shared with the established box, lies within the new box, spans it fully in two axes and touches one face, so that the remainder is again a single box disjoint from the established one; otherwise no trim is offered.", "quantifier": "all pairs of valid boxes", "why_tests_cant": "The choice of trim direction depends on the relative position of six integers against six others.", "anchors": ["resqpy/olio/box_utilities.py::overlapping_boxes", "resqpy/olio/box_utilities.py::trim_box_by_box_returning_new_mask"]}
{"id": "C05", "title": "Box trimmed to mask", "statement": "Trimming a box to a mask gives the smallest box which includes every flagged cell; no flagged cell is lost and the returned mask agrees with the old one cell by cell.", "quantifier": "all boxes and boolean masks", "why_tests_cant": "All masks of all sizes.", "anchors": ["resqpy/olio/box_utilities.py::trim_box_to_mask_returning_new_mask"]}
{"id": "C06", "title": "Fine / coarse cell mapping", "statement": "For any refinement, every fine cell belongs to exactly one coarse cell; the fine box reported for a coarse cell holds exactly the fine cells mapped to that coarse cell; the boxes of the coarse cells tile the fine grid.", "quantifier": "all extents and all per-axis ratio vectors (constant or varying)", "why_tests_cant": "Prefix sums of arbitrary length vectors; a boundary slip only shows at particular ratio transitions.", "anchors": ["resqpy/olio/fine_coarse.py::FineCoarse.coarse_for_fine_kji0", "resqpy/olio/fine_coarse.py::FineCoarse.fine_base_for_coarse_axial", "resqpy/olio/fine_coarse.py::FineCoarse.fine_box_for_coarse", "resqpy/olio/fine_coarse.py::FineCoarse.coarse_for_fine_axial_vector"]}
{"id": "C07", "title": "Fine / coarse mapping follows the current ratios", "statement": "After any history of setting constant ratios and ratio vectors and of lookups, a fine-to-coarse lookup answers according to the ratios most recently set.", "quantifier": "all histories of setter and query calls", "why_tests_cant": "Depends on the order of calls: the answer after a query may differ from the answer without it.", "anchors": ["resqpy/olio/fine_coarse.py::FineCoarse.set_constant_ratio", "resqpy/olio/fine_coarse.py::FineCoarse.set_ratio_vector", "resqpy/olio/fine_coarse.py::FineCoarse._set_fine_to_coarse_mapping"]}
{"id": "C08", "title": "Factor enumeration", "statement": "all_factors(n) is the sorted list of exactly the positive divisors of n, without repetition, and the prime factors returned multiply up to n, for every n >= 1.", "quantifier": "all positive integers", "why_tests_cant": "Infinitely many n, unbounded numbers of repeated primes.", "anchors": ["resqpy/olio/factors.py::factorize", "resqpy/olio/factors.py::all_factors", "resqpy/olio/factors.py::all_factors_from_primes"]}
{"id": "C09", "title": "Part names carry type and uuid", "statement": "The part name generated for an object gives back the uuid it was generated from; two objects with different uuids never get the same part name; the relationships part name of a part gives the same uuid and identifies the part uniquely (up to a namespace prefix and one leading slash).", "quantifier": "all object types, all uuids, all part names", "why_tests_cant": "Strings of any length with separators that might also occur in the type name.", "anchors": ["resqpy/olio/xml_et.py::part_name_for_object", "resqpy/olio/xml_et.py::uuid_in_part_name", "resqpy/olio/xml_et.py::rels_part_name_for_part"]}
{"id": "C10", "title": "XML text escaping", "statement": "Any text content written to an xml part is read back unchanged by an xml reader, whatever characters it holds.", "quantifier": "all strings", "why_tests_cant": "Needs all strings, notably those holding already escaped looking sequences.", "anchors": ["resqpy/olio/xml_et.py::write_xml_node"]}
{"id": "C11", "title": "Ordered lookup", "statement": "Lookup of a value in an ordered list finds the first position holding it whenever it is present and reports absence exactly when it is absent.", "quantifier": "all sorted lists, all values", "why_tests_cant": "Binary search boundary behaviour on all lengths and duplicates.", "anchors": ["resqpy/olio/xml_et.py::find_in_ordered_data"]}
{"id": "C12", "title": "Catalogue stays consistent", "statement": "After any history of adding and removing parts, the lookups by part name and by uuid agree: a part found by uuid is the part filed under its name, nothing removed can be found, nothing else disappears.", "quantifier": "all histories of add_part / remove_part / lookups", "why_tests_cant": "Consistency of several dictionaries under arbitrary interleavings.", "anchors": ["resqpy/model/_forestry.py::_add_part", "resqpy/model/_forestry.py::_remove_part", "resqpy/model/_forestry.py::_set_uuid_to_part", "resqpy/model/_forestry.py::_del_uuid_to_part", "resqpy/model/_catalogue.py::_check_catalogue_dictionaries"]}
{"id": "C13", "title": "Relationships stay mutual", "statement": "After any history of adding parts, creating relationships and removing parts: if a is listed as related to b then b is listed as related to a, each pair is recorded with one strength, and no relationship names a removed part.", "quantifier": "all histories of add part / add hard or soft relationship / remove part", "why_tests_cant": "Depends on interleavings of additions and removals.", "anchors": ["resqpy/model/_forestry.py::_add_uuid_relations", "resqpy/model/_forestry.py::_add_uuid_soft_relations", "resqpy/model/_forestry.py::_del_uuid_relations", "resqpy/model/_xml.py::_create_reciprocal_relationship"]}
{"id": "C14", "title": "Filtering parts is set selection", "statement": "A parts query returns, in order, exactly those parts of the starting list that satisfy every given criterion; adding a criterion never adds parts; the order in which criteria are applied does not matter.", "quantifier": "all catalogues, all combinations of criteria", "why_tests_cant": "Combinations of optional criteria over arbitrary catalogues.", "anchors": ["resqpy/model/_catalogue.py::_parts", "resqpy/model/_catalogue.py::_parts_list_filtered_by_related_uuid", "resqpy/model/_catalogue.py::_filtered_by_title"]}
{"id": "C15", "title": "Consolidation map resolves", "statement": "While consolidating equivalent objects from another model, the equivalence map always sends each immigrant uuid in one step to a resident that is not itself mapped, so resolution terminates.", "quantifier": "all histories of equivalence discoveries and forced equivalences", "why_tests_cant": "Chains and cycles only arise after particular sequences of calls.", "anchors": ["resqpy/olio/consolidation.py::Consolidation"]}
{"id": "C16", "title": "Integer arrays survive storage", "statement": "An integer array registered for writing and then read back has the same values.", "quantifier": "all integer arrays", "why_tests_cant": "The failing values lie outside the range any ordinary test uses.", "anchors": ["resqpy/olio/write_hdf5.py::H5Register.write_fp", "resqpy/olio/write_hdf5.py::H5Register.register_dataset"]}
{"id": "C17", "title": "Packed boolean arrays", "statement": "A boolean array stored in packed bit form is read back unchanged for every shape, and a packed array is recognised as packed.", "quantifier": "all boolean arrays", "why_tests_cant": "All lengths modulo eight and all contents.", "anchors": ["resqpy/olio/write_hdf5.py::H5Register.write_fp", "resqpy/model/_hdf5.py::_h5_array_element"]}
{"id": "C18", "title": "Reshaped element access", "statement": "Reading one element of a stored array using an index in a required shape gives the element that reshaping the whole array would put there.", "quantifier": "all shapes with equal element counts, all valid indices", "why_tests_cant": "Arbitrary dimension counts and extents.", "anchors": ["resqpy/model/_hdf5.py::_h5_array_element", "resqpy/model/_hdf5.py::_reshaped_index"]}
{"id": "C19", "title": "String lookup table", "statement": "After any history of creation and set operations a string lookup returns for every key the string most recently associated with it, None for keys never set, and reverse lookup returns a key holding that string.", "quantifier": "all dictionaries and update histories", "why_tests_cant": "Two internal storage forms switched by a density condition.", "anchors": ["resqpy/property/string_lookup.py::StringLookup.set_string", "resqpy/property/string_lookup.py::StringLookup.get_string", "resqpy/property/string_lookup.py::StringLookup.set_list_from_dict_conditionally", "resqpy/property/string_lookup.py::StringLookup.get_index_for_string"]}
{"id": "C20", "title": "Time series stay ordered and searchable", "statement": "However timestamps are added, the series stays ordered; the searches return the last timestamp not later, the first not earlier, and the closest timestamp to a given one.", "quantifier": "all histories of additions and all query timestamps", "why_tests_cant": "Ordering invariants under arbitrary insertions; nearest selection at all gap positions.", "anchors": ["resqpy/time_series/_time_series.py::TimeSeries.add_timestamp", "resqpy/time_series/_time_series.py::TimeSeries.index_for_timestamp_not_later_than", "resqpy/time_series/_time_series.py::TimeSeries.index_for_timestamp_not_earlier_than", "resqpy/time_series/_time_series.py::TimeSeries.index_for_timestamp_closest_to"]}
{"id": "C21", "title": "CRS local and global coordinates are inverse", "statement": "Converting local to global and back (and global to local and back) is the identity for every coordinate reference system; converting between two systems and back is the identity.", "quantifier": "all crs parameters (axis order, z direction, offsets, rotation, units), all points", "why_tests_cant": "Continuous parameter space; composition of reflections, rotations and translations.", "anchors": ["resqpy/crs.py::Crs.global_to_local", "resqpy/crs.py::Crs.local_to_global", "resqpy/crs.py::Crs.convert_to", "resqpy/crs.py::Crs.convert_from"]}
{"id": "C22", "title": "Axis order switching", "statement": "Switching a point from one projected axis order to another gives the point with the same easting and northing; switching is composable.", "quantifier": "all pairs of the axis orders, all points", "why_tests_cant": "All ordered pairs for all points.", "anchors": ["resqpy/crs.py::switch_axes"]}
{"id": "C23", "title": "Handedness", "statement": "The reported handedness of a crs agrees with the orientation of its axes.", "quantifier": "all axis orders and z directions", "why_tests_cant": "Agreement between two separately coded tables.", "anchors": ["resqpy/crs.py::Crs.is_right_handed_xyz", "resqpy/olio/xml_et.py::xyz_handedness"]}
{"id": "C24", "title": "Cell volumes", "statement": "The volume returned for a hexahedral cell of a block grid is the volume enclosed by its bilinear faces; it does not depend on the centre point or on translation, equals the scalar triple product for a parallelepiped, and scalar and array forms agree.", "quantifier": "all corner points", "why_tests_cant": "A polynomial identity in 24 real variables.", "anchors": ["resqpy/olio/volume.py::tetra_cell_volume", "resqpy/olio/volume.py::tetra_volumes", "resqpy/olio/volume.py::tetra_volumes_slow"]}
{"id": "C25", "title": "Corner point resequencing", "statement": "Resequencing corner point data between simulator and resqml order is undone by the reverse resequencing and moves values without changing them.", "quantifier": "all corner point arrays", "why_tests_cant": "All grid sizes and contents.", "anchors": ["resqpy/olio/grid_functions.py::resequence_nexus_corp"]}
{"id": "C26", "title": "Distance to nearest split face", "statement": "The distance map gives for each column the number of column steps to the nearest column having a split face.", "quantifier": "all split face patterns", "why_tests_cant": "All grids; needs path distances in any size of map.", "anchors": ["resqpy/olio/grid_functions.py::columns_to_nearest_split_face"]}
{"id": "C27", "title": "Split column faces", "statement": "The array of split column faces marks a face exactly when the single-face query reports the face as split.", "quantifier": "all grids with split pillars", "why_tests_cant": "Boundary rows and columns of grids of any size.", "anchors": ["resqpy/grid/_face_functions.py::split_column_faces", "resqpy/grid/_face_functions.py::is_split_column_face"]}
{"id": "C28", "title": "Pinchout connections", "statement": "The pinchout connection set pairs, in each column, every cell above a pinched out interval with the cell immediately below that interval.", "quantifier": "all patterns of pinched out and inactive cells", "why_tests_cant": "All columns; successive pinchouts interact.", "anchors": ["resqpy/fault/_gcs_functions.py::pinchout_connection_set"]}
{"id": "C29", "title": "Unit conversion", "statement": "Converting from one unit to another and back is the identity, converting via an intermediate unit equals converting directly, and in place conversion agrees with value conversion.", "quantifier": "all values and all conversion coefficients", "why_tests_cant": "Continuous values and any unit dictionary.", "anchors": ["resqpy/weights_and_measures/weights_and_measures.py::convert", "resqpy/weights_and_measures/weights_and_measures.py::convert_transmissibilities"]}
{"id": "C30", "title": "Triangular mesh location", "statement": "For a point inside the mesh the triangle and weights returned are such that weights are between 0 and 1, sum to one, and the weighted sum of the triangle nodes is the point; triangle numbering is one to one.", "quantifier": "all mesh sizes, all points", "why_tests_cant": "Continuous positions, alternating rows.", "anchors": ["resqpy/surface/_tri_mesh.py::TriMesh.tji_tc_for_xy", "resqpy/surface/_tri_mesh.py::TriMesh.tri_nodes_for_tji", "resqpy/surface/_tri_mesh.py::TriMesh.all_tri_nodes", "resqpy/surface/_tri_mesh.py::TriMesh.tji_for_triangle_index"]}
{"id": "C31", "title": "Split pillar look up", "statement": "The pillar used at each corner of each column according to the column to pillar mapping is the same as reported around the pillar itself.", "quantifier": "all split pillar tables", "why_tests_cant": "All tables of extra pillars of any length.", "anchors": ["resqpy/grid/_pillars.py::create_column_pillar_mapping", "resqpy/grid/_pillars.py::pillar_foursome"]}
{"id": "C32", "title": "Zone layer ranges", "statement": "The zone layer ranges derived from a zone array are ordered, disjoint, and a layer is within the range of a zone exactly when its active cells are in that zone.", "quantifier": "all zone arrays", "why_tests_cant": "All arrays and masks.", "anchors": ["resqpy/derived_model/_zone_layer_ranges_from_array.py::zone_layer_ranges_from_array"]}
{"id": "C33", "title": "Keyword scanning", "statement": "Searching an ascii file for a keyword leaves the file position at the first matching line, or unchanged if there is none; splitting a trailing comment loses no text.", "quantifier": "all files and keywords", "why_tests_cant": "All line sequences.", "anchors": ["resqpy/olio/keyword_files.py::find_keyword", "resqpy/olio/keyword_files.py::split_trailing_comment", "resqpy/olio/keyword_files.py::find_keyword_pair"]}
{"id": "C34", "title": "Cached connection sets", "statement": "Requesting a connection set with transmissibilities returns transmissibilities computed for the connection set returned, after any history of requests.", "quantifier": "all histories of requests", "why_tests_cant": "Order dependence of caches.", "anchors": ["resqpy/grid/_connection_sets.py::pinchout_connection_set", "resqpy/grid/_connection_sets.py::k_gap_connection_set"]}
{"id": "C35", "title": "Polyline vertex thinning", "statement": "Removing neighbouring duplicate vertices keeps the first and last vertices and leaves no two neighbouring vertices within tolerance, keeping a subsequence of the original.", "quantifier": "all polylines, all tolerances", "why_tests_cant": "All vertex sequences.", "anchors": ["resqpy/olio/simple_lines.py::duplicate_vertices_removed", "resqpy/olio/simple_lines.py::polygon_line"]}
{"id": "C36", "title": "Point in polygon", "statement": "The crossing number test does not depend on where the polygon starts or on its direction; the array and single point versions agree; the winding test agrees with it in parity.", "quantifier": "all polygons, all points", "why_tests_cant": "Continuous points and arbitrary polygons.", "anchors": ["resqpy/olio/point_inclusion.py::pip_cn", "resqpy/olio/point_inclusion.py::pip_wn", "resqpy/olio/point_inclusion.py::pip_array_cn"]}
{"id": "C37", "title": "Refinement proportions", "statement": "The proportions reported for each coarse slice number as many as its refinement ratio, are positive, add up to one and are in the ratios given by the caller; the interpolation values are their running sums, starting at zero, increasing and below one.", "quantifier": "all ratio vectors and all lists of proportion vectors, all histories of setter calls", "why_tests_cant": "a test covers a few vectors; the staleness depends on call order", "anchors": ["resqpy/olio/fine_coarse.py: FineCoarse.proportion, proportions_for_axis, interpolation, set_proportions_list_of_vectors, set_equal_proportions"]}
{"id": "C38", "title": "Tartan refinement", "statement": "The ratios of a tartan refinement are the fovea ratio within the fovea, never below one, and never increase when moving away from the fovea, for linear and exponential decay with given or default rates; the resulting vectors are accepted by the refinement object.", "quantifier": "all extents, fovea positions, fovea ratios and decay rates", "why_tests_cant": "rounding and loop exit depend on unbounded extents and rates; tests use one or two configurations", "anchors": ["resqpy/olio/fine_coarse.py: tartan_refinement"]}
{"id": "C39", "title": "Tag matching agrees with prefix stripping", "statement": "An xml tag matches a plain element name exactly when the tag with its namespace prefix removed equals the name, whatever the namespace looks like.", "quantifier": "all tags (with or without namespace, in either notation), all plain names", "why_tests_cant": "All strings; the two routines scan from different ends.", "anchors": ["resqpy/olio/xml_et.py::match", "resqpy/olio/xml_et.py::stripped_of_prefix"]}
{"id": "C40", "title": "The forms of a uuid agree", "statement": "A uuid written as text is read back as the same uuid, also with a leading underscore or with trailing text; different uuids have different texts; two uuids given as object, integer or text match exactly when they are the same uuid; nothing matches an absent uuid.", "quantifier": "all 128 bit uuids, all accepted forms, all lists of uuids", "why_tests_cant": "2^128 uuids and arbitrary trailing text.", "anchors": ["resqpy/olio/uuid.py::uuid_from_string", "resqpy/olio/uuid.py::matching_uuids", "resqpy/olio/uuid.py::uuid_in_list"]}
{"id": "C41", "title": "Time series from a list", "statement": "Making a time series from a list of timestamps succeeds exactly when the list is not empty and no two of the timestamps denote the same time; the series then holds exactly those times, each once, in increasing order.", "quantifier": "all lists of timestamps in the forms YYYY-MM-DD and YYYY-MM-DDThh:mm:ssZ", "why_tests_cant": "All list lengths, orders and mixtures of the two forms.", "anchors": ["resqpy/time_series/_functions.py::time_series_from_list", "resqpy/time_series/_functions.py::cleaned_timestamp"]}
{"id": "C42", "title": "Sense of crs rotation", "statement": "A rotated coordinate reference system is turned clockwise (seen from above) from its parent by its rotation, whatever its axis order: a local step maps to the global step it would be unrotated, turned clockwise by the angle.", "quantifier": "all crs, all points and steps, all z directions, all axis order pairs for which switching is right", "why_tests_cant": "Continuous parameters; the sign of the angle depends on the axis order and is coded as a table plus a swap of matrices.", "anchors": ["resqpy/crs.py::Crs.set_rotation_matrices", "resqpy/crs.py::Crs.local_to_global"]}
{"id": "C43", "title": "Array and point conversion between crs agree", "statement": "Converting an array of points from one crs to another gives the points which converting each one singly gives.", "quantifier": "all pairs of crs, all non-empty lists of points", "why_tests_cant": "The array code takes different shortcuts (equivalence test, shared units).", "anchors": ["resqpy/crs.py::Crs.convert_array_to", "resqpy/crs.py::Crs.convert_to", "resqpy/crs.py::Crs.is_equivalent"]}
{"id": "C44", "title": "Volumes of unstructured cells", "statement": "The volume of a cell of an unstructured hexahedral grid is the volume enclosed by its bilinear faces, whatever the apex, the order of faces, the starting node and sense of each face's nodes (given a matching handedness flag), and agrees with the block grid's volume for the same cell; tetrahedron volume does not depend on vertex order.", "quantifier": "all corner points, all apexes, all consistent listings of the faces", "why_tests_cant": "Continuous geometry and all listings of the faces.", "anchors": ["resqpy/unstructured/_hexa_grid.py::HexaGrid.volume", "resqpy/olio/volume.py::pyramid_volume", "resqpy/olio/volume.py::tetrahedron_volume"]}
{"id": "C45", "title": "Sides of a line of pillars", "statement": "For a path of neighbouring pillars, the columns reported around each pillar as to the right of the path are exactly those geometrically to its right; following the path backwards exchanges the sides, and along each segment both ends agree about the columns beside it.", "quantifier": "all paths of single steps, all positions along them", "why_tests_cant": "All paths of any length, all turns; consistency between consecutive pillars.", "anchors": ["resqpy/olio/grid_functions.py::left_right_foursome"]}
{"id": "C46", "title": "Infill of inactive cells", "statement": "Filling in the geometry of a block grid leaves active cells as they are and makes the inactive cells between two active ones exactly fill the space between them.", "quantifier": "all columns of cells with any pattern of active and inactive cells, both K directions", "why_tests_cant": "Any number of cells and voids, any depths and thicknesses.", "anchors": ["resqpy/olio/grid_functions.py::infill_block_geometry"]}
{"id": "C47", "title": "Translation of corner points", "statement": "Translating corner points moves all of them by the same amount: by the shift given, or so that the least value becomes the one asked for; when digits are to be preserved the amount is a multiple of the power of ten nearest towards zero.", "quantifier": "all corner point arrays, shifts and powers of ten", "why_tests_cant": "All values.", "anchors": ["resqpy/olio/grid_functions.py::translate_corp"]}
{"id": "C48", "title": "Connection sets from face masks", "statement": "A connection set built from masks over the internal faces of a single grid lists exactly the marked faces, each once, as the two facing cell faces of neighbouring cells, under the feature given.", "quantifier": "all grid extents, all masks", "why_tests_cant": "Index arithmetic of naturalised cells and face numbering over all extents.", "anchors": ["resqpy/fault/_grid_connection_set.py::GridConnectionSet.set_pairs_from_face_masks", "resqpy/fault/_grid_connection_set.py::GridConnectionSet.set_pairs_from_kelp", "resqpy/fault/_gcs_functions.py::grid_skin"]}
{"id": "C49", "title": "Connection sets from lists of faces, and removal of duplicates", "statement": "Building a connection set from lists of face indices gives every listed face, in sorted order without duplicates, and properties of the set stay with their faces when the set is sorted and duplicates removed.", "quantifier": "all lists of faces, with repeats in any order", "why_tests_cant": "All orders and multiplicities.", "anchors": ["resqpy/fault/_grid_connection_set.py::GridConnectionSet.from_faces_indices", "resqpy/fault/_grid_connection_set.py::GridConnectionSet.sort_and_remove_duplicates"]}
{"id": "C50", "title": "Filtered connection sets", "statement": "Filtering by a mask over cells, by a range of layers or by feature keeps exactly the connections asked for, each with the feature it had; unused features are dropped. A feature found by name has that name.", "quantifier": "all connection sets, masks, layer ranges and names", "why_tests_cant": "Renumbering of features depends on which remain.", "anchors": ["resqpy/fault/_grid_connection_set.py::GridConnectionSet.filtered_by_cell_mask", "resqpy/fault/_grid_connection_set.py::GridConnectionSet.filtered_by_layer_range", "resqpy/fault/_grid_connection_set.py::GridConnectionSet.single_feature", "resqpy/fault/_grid_connection_set.py::GridConnectionSet.feature_index_and_uuid_for_fault_name", "resqpy/fault/_grid_connection_set.py::GridConnectionSet.clean_feature_list"]}
{"id": "C51", "title": "Merging connection sets", "statement": "Appending one connection set to another gives all the connections of both, each with the feature it had, and keeps common features once.", "quantifier": "all pairs of connection sets with distinct uuids for distinct features", "why_tests_cant": "All overlaps of feature lists.", "anchors": ["resqpy/fault/_grid_connection_set.py::GridConnectionSet.append"]}
{"id": "C52", "title": "Inheriting features", "statement": "After a connection set inherits features from another, each connection with a cell face found in the other set has the feature of a connection of the other set with that face; other connections keep their feature.", "quantifier": "all pairs of single grid connection sets, with any faces and features in common", "why_tests_cant": "Depends on which features fall out of use and on sorting and searching of all face lists.", "anchors": ["resqpy/fault/_grid_connection_set.py::GridConnectionSet.inherit_features"]}
{"id": "C53", "title": "Transmissibility of connections", "statement": "The transmissibility of each connection is that of the two half cells at the connected faces in series, each reduced by its fractional area, times the multiplier, and zero where either is negligible.", "quantifier": "all connection sets, half cell transmissibilities, areas and multipliers", "why_tests_cant": "Algebraic law over all values.", "anchors": ["resqpy/fault/_grid_connection_set.py::GridConnectionSet.tr_property_array"]}
{"id": "C54", "title": "Export of fault faces", "statement": "The simulator file written for a connection set gives, for each feature, each cell face of its connections once with the multiplier of that connection.", "quantifier": "all connection sets and multiplier arrays, either or both sides", "why_tests_cant": "Merging of runs and sorting depends on all patterns of faces.", "anchors": ["resqpy/fault/_grid_connection_set.py::GridConnectionSet.write_simulator"]}
{"id": "C55", "title": "Combined multipliers on grid faces", "statement": "Combining transmissibility multipliers of several connection sets gives at each grid face the minimum, maximum or product of the multipliers there (or an exception for conflicts if so asked) and the fill value elsewhere; never a negative number.", "quantifier": "all lists of multiplier properties, merge modes and fill values", "why_tests_cant": "All overlaps of faces between sets.", "anchors": ["resqpy/fault/_gcs_functions.py::combined_tr_mult_from_gcs_mults"]}
{"id": "C56", "title": "Map from K face values", "statement": "The columns property derived from a connection set property has in each column the mean, least, greatest, any or only value of the K faces there, and the null value in other columns.", "quantifier": "all connection sets and values", "why_tests_cant": "Running mean over any number of faces in any order.", "anchors": ["resqpy/fault/_gcs_functions.py::grid_columns_property_from_gcs_property"]}
{"id": "C57", "title": "Connection sets from tables of fault faces", "statement": "A connection set built from a table of fault faces has exactly the internal faces the rows stand for, paired with the facing faces of the neighbours, with feature and multiplier of their row.", "quantifier": "all tables and grid extents, whatever organizing objects exist", "why_tests_cant": "Boundary rows, index bases, name groups and existing objects in all combinations.", "anchors": ["resqpy/fault/_grid_connection_set.py::GridConnectionSet.set_pairs_from_faces_df", "resqpy/fault/_gcs_functions.py::remove_external_faces_from_faces_df", "resqpy/fault/_gcs_functions.py::standardize_face_indicator_in_faces_df"]}
{"id": "C58", "title": "K gap connections", "statement": "The K gap connection set connects exactly the cells above and below each K gap that has (nearly) no thickness in their column; layer interfaces are shared by neighbouring layers unless there is a gap between them.", "quantifier": "all patterns of K gaps, geometries and tolerances", "why_tests_cant": "Running count of gaps over all patterns.", "anchors": ["resqpy/fault/_gcs_functions.py::k_gap_connection_set", "resqpy/grid/_grid.py::Grid._set_k_raw_index_array"]}
{"id": "C59", "title": "Grid face arrays from a connection set property", "statement": "The grid face arrays have at each face the value of a contributing connection there, zero at baffles and the default at other faces.", "quantifier": "all connection sets, feature and active filters, both sides or one", "why_tests_cant": "All coincidences of faces.", "anchors": ["resqpy/fault/_grid_connection_set.py::GridConnectionSet.grid_face_arrays"]}
{"id": "C60", "title": "Pixels of a polygon", "statement": "Scanning a polygon over a regular set of pixels sets exactly the pixels whose centres are inside the polygon.", "quantifier": "all polygons, all pixel spacings and sizes", "why_tests_cant": "Continuous polygon positions relative to pixels; every row may be crossed any number of times.", "anchors": ["resqpy/olio/point_inclusion.py::scan"]}
{"id": "C61", "title": "Pixel map of a grid horizon", "statement": "Each pixel of a pixel map holds the column whose outline contains the pixel centre, or null if there is none.", "quantifier": "all horizons, all pixel geometries", "why_tests_cant": "All column shapes and positions relative to the pixel frame.", "anchors": ["resqpy/grid/_pixel_maps.py::pixel_map_for_split_horizon_points"]}
{"id": "C62", "title": "Reading lines from an ascii file", "statement": "Reading polylines from an ascii file returns the points of each block between null records, in order, regardless of blank lines, and fails as a whole on a malformed line.", "quantifier": "all files", "why_tests_cant": "All sequences of lines.", "anchors": ["resqpy/olio/simple_lines.py::read_lines"]}
{"id": "C63", "title": "Triangular mesh as a surface", "statement": "The triangles and points got from a triangular mesh refer to each other: each triangle corner index is that of the mesh node it stands for.", "quantifier": "all mesh sizes", "why_tests_cant": "Mesh sizes beyond what fits in memory of a test; index arithmetic with wrapping.", "anchors": ["resqpy/surface/_tri_mesh.py::TriMesh.triangles_and_points"]}
{"id": "C64", "title": "Zero crossings of a triangular mesh", "statement": "TriMesh.edge_zero_crossings returns one point for each side of a triangle of the mesh along which linearly varying values pass through zero, at the place where they are zero, each side once.", "quantifier": "every mesh size, every array of values", "why_tests_cant": "all sign patterns over meshes of every size cannot be enumerated", "anchors": ["resqpy/surface/_tri_mesh.py::TriMesh.edge_zero_crossings"]}
{"id": "C65", "title": "Axial crossings of a triangular mesh", "statement": "TriMesh.axial_edge_crossings(axis, value) returns points of the sides of the triangles with the coordinate asked for, for a value anywhere within the mesh and whatever the origin of the mesh.", "quantifier": "every mesh, origin, axis and value", "why_tests_cant": "the value may fall anywhere relative to the rows and columns", "anchors": ["resqpy/surface/_tri_mesh.py::TriMesh.axial_edge_crossings"]}
{"id": "C66", "title": "Points of a trajectory at measured depths", "statement": "Trajectory.xyz_for_md(md) returns the point at that measured depth on the piecewise linear path from the datum through the control points, for measured depths from zero to the finish and for no others; the control points are returned at their own measured depths.", "quantifier": "every trajectory with increasing measured depths, every md", "why_tests_cant": "the binary search must land in the right interval for every number of knots and every md", "anchors": ["resqpy/well/_trajectory.py::Trajectory.xyz_for_md"]}
{"id": "C67", "title": "Cells, intervals and measured depths of a blocked well agree", "statement": "interval_for_cell, entry_and_exit_mds, map_cell_and_grid_indices, compressed_grid_indices and wb_cell_for_md of a blocked well describe one and the same correspondence between its cells, intervals and measured depths, with or without unblocked intervals.", "quantifier": "every pattern of blocked and unblocked intervals, every md", "why_tests_cant": "patterns of unblocked intervals are unbounded", "anchors": ["resqpy/well/_blocked_well.py::BlockedWell.interval_for_cell", "resqpy/well/_blocked_well.py::BlockedWell.entry_and_exit_mds", "resqpy/well/_blocked_well.py::BlockedWell.map_cell_and_grid_indices", "resqpy/well/_blocked_well.py::BlockedWell.compressed_grid_indices", "resqpy/well/_blocked_well.py::BlockedWell.wb_cell_for_md"]}
{"id": "C68", "title": "Frame properties are shared out to cells by measured depth", "statement": "When properties of a wellbore frame are passed to a blocked well, each cell gets from each frame interval the part which lies in the cell: permeability lengths in proportion (adding up to the total where the well covers the frame), perforated lengths as lengths in common, skins as means weighted by length, and a cell is active exactly when an active interval has some length in it.", "quantifier": "every frame, every well and every set of interval values", "why_tests_cant": "cells and intervals may start and end anywhere relative to each other", "anchors": ["resqpy/well/blocked_well_frame.py::blocked_well_frame_contributions_list", "resqpy/well/blocked_well_frame.py::add_blocked_well_properties_from_wellbore_frame", "resqpy/well/_wellbore_frame.py::WellboreFrame.interval_for_md"]}
{"id": "C69", "title": "Partial perforation fractions", "statement": "The fraction of a cell's measured depth interval that a list of perforations covers is worked out correctly for perforations in any order and position.", "quantifier": "every interval and every list of perforations", "why_tests_cant": "relative positions of perforations and interval are unbounded", "anchors": ["resqpy/well/_blocked_well.py::BlockedWell.__get_part_perf_fraction_for_interval"]}
{"id": "C70", "title": "Trajectories from deviation surveys follow circular arcs", "statement": "The control points of a trajectory computed from a deviation survey are joined by arcs of circles of the measured length, leaving and arriving in the directions surveyed at the stations, for every survey with increasing measured depths, in degrees or radians.", "quantifier": "every survey", "why_tests_cant": "a continuum of angles and lengths; the special cases of the formula are easily missed", "anchors": ["resqpy/well/_trajectory.py::Trajectory.compute_from_deviation_survey", "resqpy/olio/vector_utilities.py::unit_vector_from_azimuth_and_inclination"]}
{"id": "C71", "title": "Inclinations of a trajectory", "statement": "Trajectory.inclinations returns for each interval its angle in degrees from the downward vertical.", "quantifier": "every interval vector, unit factor and sense of z", "why_tests_cant": "continuum of directions, quadrant cases", "anchors": ["resqpy/well/_trajectory.py::Trajectory.inclinations"]}
{"id": "C72", "title": "A grid made from corner points has those corner points", "statement": "grid_from_cp makes a grid from every corner point array with geometry defined everywhere; when the grid is stored and read back every corner of every cell lies, in each coordinate, within the splitting tolerance plus half the largest void closed of the corner given, exactly so with zero tolerance and no small voids; a K gap is present after a layer iff the next layer is somewhere further away than the limit; the grid object returned answers as the grid read back does.", "quantifier": "all corner point arrays (exact numbers) of any extent, all active masks, all non-negative tolerances, all cells and corners", "why_tests_cant": "the pillar sharing decisions depend on all pairs of columns around every pillar and on voids between all layers; tests cover a few small grids", "anchors": ["resqpy/rq_import/_grid_from_cp.py:grid_from_cp", "resqpy/grid/_points_functions.py:point", "resqpy/grid/_grid.py:_set_k_raw_index_array"]}
{"id": "C73", "title": "Pillars of a grid made from corner points are shared exactly where columns meet", "statement": "Columns share a pillar only where their corners agree within twice the tolerances; a grid whose columns agree everywhere has no split pillars; the points of a natural pillar come from a column around it, one with an active cell if there is any.", "quantifier": "all corner point arrays, active masks and tolerances", "why_tests_cant": "needs all arrangements of faults and inactive columns around every pillar", "anchors": ["resqpy/rq_import/_grid_from_cp.py:grid_from_cp"]}
{"id": "C74", "title": "Extracting a box keeps the cells of the source grid", "statement": "The grid extracted for an inclusive box of cells of a source grid has the extent of the box; each corner of each of its cells is at the point where the source grid has that corner of that cell, whatever faults (split pillars) and K gaps the source has; it has K gaps exactly where the source has them between layers of the box; and a cell is inactive exactly when the source cell is or the mask passed says so. Boxes reaching beyond the grid are refused.", "quantifier": "every source grid (extent, K gaps, split pillar tables, points), every box, every cell and corner in it", "why_tests_cant": "The split pillar tables are rebuilt pillar by pillar for the box; tests use a few grids with simple faults, whereas the claim covers every pattern of splitting around each pillar, at the edges and corners of every box.", "anchors": ["resqpy/derived_model/_extract_box.py: extract_box, _process_split_pillars, _inherit_k_gaps, _extract_inactive_cell_mask, _local_pillar_index, _cols_for_pillar", "resqpy/grid/_pillars.py: create_column_pillar_mapping"]}
{"id": "C75", "title": "Upscaling to a coarser grid conserves volumes and keeps means in range", "statement": "When a property collection is upscaled from a fine grid to a coarser one, in every coarse cell rock volume is the total over the fine cells in it, and so are rock volume times net to gross ratio, times porosity, and times each saturation; so the field totals are unchanged. Coarse net to gross ratio, porosity, saturation, permeability and other continuous values lie between the least and greatest fine values; coarse cell lengths lie between the least and greatest sums of fine lengths along lines of cells; a coarse discrete value is a value of one of the fine cells. The source grid is not changed.", "quantifier": "every coarsening (any ratios on each axis), all arrays of values, any lists of properties", "why_tests_cant": "Conservation is a claim about sums over cells of every size and about weights built up through several passes over shared arrays; a test compares a few numbers, and a constant property hides a wrong weight.", "anchors": ["resqpy/property/grid_property_collection.py: extend_imported_list_copying_properties_from_other_grid_collection, _extend_imported_with_coarsening, _coarsening_sum, _coarsening_weighted_mean, _coarsening_sample"]}
{"id": "C76", "title": "Decoarsening imported properties keeps totals", "statement": "Values imported for a coarsened simulation grid are spread over the fine cells: in every box of fine cells of a coarse cell, volumes are shared out equally with their total kept, lengths along each line of cells in their direction with their total kept, and other values are copied from the host cell; a fine cell becomes inactive exactly when its host is; other properties are left as they were. The boxes are found from the ICOARS array or from KID values.", "quantifier": "every division of a grid of any extent into boxes of cells, all values, any list of properties", "why_tests_cant": "The boxes are found cell by cell from runs of array values; tests use one or two regular coarsenings and a few keywords, whereas the claim covers every arrangement of boxes and every order of properties.", "anchors": ["resqpy/property/grid_property_collection.py: decoarsen_imported_list"]}
{"id": "C77", "title": "Geometry of a refined grid", "statement": "Refining a grid succeeds for every valid refinement of its extent, with or without K gaps and with or without split pillars. A corner of a fine cell is the trilinear interpolation of the corners of the coarse cell it is in, at the fractions given by the proportions of the refinement; so corners of coarse cells are kept, and fine cells within a coarse cell share their corners. The K gaps of the refined grid come after the last fine layer of each coarse layer which has one, and nowhere else, and its gap arrays agree with each other. Refinements which are not valid or have another coarse extent are refused.", "quantifier": "all grids with defined geometry, all refinements with any ratios and proportions", "why_tests_cant": "the indices of planes of points depend on the sums of ratios and the gaps passed so far: tests cover one or two refinements", "anchors": ["resqpy/derived_model/_refined_grid.py:refined_grid", "resqpy/derived_model/_refined_grid.py:_refined_unfaulted_grid", "resqpy/derived_model/_refined_grid.py:_refined_faulted_grid"]}
{"id": "C78", "title": "Properties inherited by a refined grid", "statement": "The properties inherited are those of the realization asked for, or those without one unless all are wanted. The value of a fine cell is that of the coarse cell it is in; for a cell length along an axis it is scaled so that the lengths of the fine cells making up a coarse cell add up to its length. The rest of what describes the property is the same.", "quantifier": "all collections, realizations, and valid refinements", "why_tests_cant": "the values depend on the lookup from fine to coarse for every ratio; constants take another branch", "anchors": ["resqpy/property/grid_property_collection.py:extend_imported_list_copying_properties_from_other_grid_collection", "resqpy/derived_model/_refined_grid.py:_inherit_properties"]}
{"id": "C79", "title": "Geometry of a coarsened grid", "statement": "Coarsening a grid without split pillars or K gaps works for every valid coarsening of its extent, and each of the eight corners of a coarse cell is the same corner of the fine cell at that corner of the box of fine cells it stands for. Refining a grid and coarsening the result the same way gives back the corners of the grid, whatever the ratios and proportions. Grids with split pillars or K gaps, and coarsenings which are not valid or are for another extent, are refused.", "quantifier": "all grids, all coarsenings with any ratios", "why_tests_cant": "constant and varying ratios take different branches, and the rows sampled depend on sums of ratios", "anchors": ["resqpy/derived_model/_coarsened_grid.py:coarsened_grid"]}
{"id": "C80", "title": "Grids with their faults healed", "statement": "The unsplit points of a grid are, at each node and interface, the mean of the points at which the columns meeting there have that corner; a node where no pillar is added keeps its point; a grid without split pillars has its own points; asking changes nothing else of the grid and the answer stays the same. A grid made by unsplit_grid has the same layers and columns, no split pillars, and each corner at that mean; an unfaulted grid is refused.", "quantifier": "all grids, split pillar tables and points", "why_tests_cant": "interior nodes, the four edges and the four corners are each handled by separate code", "anchors": ["resqpy/grid/_points_functions.py:unsplit_points_ref", "resqpy/derived_model/_unsplit_grid.py:unsplit_grid"]}
{"id": "C81", "title": "Grids with one layer for each zone", "statement": "A grid made by single_layer_grid or zonal_grid has one layer for each zone, from the top of the first layer of the zone to the base of its last, at every pillar; a cell is inactive where all the cells it replaces are, or any of them if that is asked for.", "quantifier": "all grids, zone arrays, lists of layer ranges and limits", "why_tests_cant": "which interface is used depends on the ranges of every zone: a test with one zone does not reach the zonal branch", "anchors": ["resqpy/derived_model/_zonal_grid.py:zonal_grid", "resqpy/derived_model/_zonal_grid.py:single_layer_grid"]}
{"id": "C82", "title": "Grids interpolated between two", "statement": "Every corner of every cell of a grid interpolated between two grids of the same extent is on the straight line between the same corners of the two, the given part of the way; where the two grids have different faults it may differ by the split tolerance and by half of the largest void which was closed. A cell is inactive only if it is in both grids. Grids of different extent or kind, and a part outside 0 to 1, are refused.", "quantifier": "all pairs of grids, parts of the way and tolerances", "why_tests_cant": "a continuum of parts of the way, and all pairs of fault patterns", "anchors": ["resqpy/derived_model/_interpolated_grid.py:interpolated_grid"]}
{"id": "C83", "title": "Local depth adjustment", "statement": "Each pillar is moved as a whole, vertically only, by the shift asked for times a decay which depends only on its distance in plan from the centre at the reference interface: one at the centre, zero from the radius outward, never growing with distance and without a step, for either shape; downward for a positive shift whichever way z runs; layers keep their thickness. Nothing is made if no pillar is in reach, or if the centre is in global coordinates and the coordinate reference system is rotated.", "quantifier": "all grids, centres, radii, shifts, shapes and reference interfaces", "why_tests_cant": "a continuum of distances; the two branches of the quadratic decay meet at half the radius", "anchors": ["resqpy/derived_model/_local_depth_adjustment.py:local_depth_adjustment"]}
{"id": "C84", "title": "Scaling of the throws of faults", "statement": "With a scaling factor, the throw between any two columns which meet at a faulted node is multiplied by the factor in the plane of reference, about the mean of the corners which meet there, which stays; each pillar is moved as a whole. At other nodes the shift is along the pillar and its vertical part decays with the number of steps to the nearest fault, to nothing beyond the given range. A factor of one changes nothing. Unfaulted grids and planes out of range are refused.", "quantifier": "all faulted grids without K gaps, factors, ranges and planes of reference", "why_tests_cant": "the reach of each sweep over the nodes depends on all faults at once; all fault patterns", "anchors": ["resqpy/derived_model/_fault_throw_scaling.py:fault_throw_scaling", "resqpy/derived_model/_fault_throw_scaling.py:global_fault_throw_scaling"]}
{"id": "C85", "title": "Grids draped to a surface", "statement": "After draping, the mean of the corners of columns which meet at a node is at the point where the (mean) pillar of the node meets the surface, in the plane of reference; the thickness of layers and the throws of faults are kept. A pillar which misses the surface, or a layer out of range, stops it. Questions about the new grid are answered from its own points.", "quantifier": "all grids without K gaps, surfaces and planes of reference", "why_tests_cant": "all surfaces and fault patterns; what is kept for later answers depends on the order of the steps", "anchors": ["resqpy/derived_model/_drape_to_surface.py:drape_to_surface"]}
{"id": "C86", "title": "Faults added along paths of pillars", "statement": "Adding a fault along a path of neighbouring pillars moves every corner of every column at a pillar of the path by the left or the right throw, according to the side of the path on which the column is, along the pillar; not at a tip within the grid; all other corners stay. Pillars are split only where columns using one pillar are to be moved differently, existing splits are used, and the tables of split pillars stay in order; adding the same fault again with any throws leaves the tables as they are. Several faults add up, and the default throws are a half and minus a half.", "quantifier": "all grids with or without faults already in them, all paths (also through the same pillar more than once), all throws, all sequences of faults", "why_tests_cant": "splits of one pillar depend on all the faults which went through it before; the flat tables are edited in place", "anchors": ["resqpy/derived_model/_add_faults.py:add_faults", "resqpy/derived_model/_add_faults.py:_fault_from_pillar_list", "resqpy/derived_model/_add_faults.py:_processs_foursome"]}
{"id": "C87", "title": "Lines meeting triangles", "statement": "A line, or a segment of it, is reported to meet a triangle exactly if it is not parallel to the plane of the triangle and some point of it is a weighted mean of the corners; the point returned is that point, boundaries included. The versions for many triangles, many lines and polylines agree with that for one line and one triangle; lists distilled from them hold each hit once, and the last, the first, the hits of a line and the hits of a triangle are those of the individual searches.", "quantifier": "all lines, segments, triangles (degenerate ones too), lists of them of any length, any tolerances", "why_tests_cant": "the boundary cases (parallel, touching an edge or a corner, ends of the segment) are a null set which sampling never meets, and the vectorised versions repeat the arithmetic in another order", "anchors": ["resqpy/olio/intersection.py:line_triangle_intersect", "resqpy/olio/intersection.py:line_plane_intersect", "resqpy/olio/intersection.py:line_triangles_intersects", "resqpy/olio/intersection.py:line_set_triangles_intersects", "resqpy/olio/intersection.py:poly_line_triangles_intersects", "resqpy/olio/intersection.py:distilled_intersects", "resqpy/olio/intersection.py:last_intersects", "resqpy/olio/intersection.py:poly_line_triangles_first_intersect"]}
{"id": "C88", "title": "Lines in the plane", "statement": "Two lines in the plane are reported to meet exactly if they are not parallel, in the point common to both; as segments exactly if that point is between their ends, ends included. The projection of a point onto a line is the nearest point of the line; snapping to a segment gives the nearest point of the segment; the distances from a line and from a segment are those to the nearest point.", "quantifier": "all points and lines of the plane, with all combinations of the bounding options", "why_tests_cant": "nearest means nearest among infinitely many points; ends and parallel lines are boundary cases", "anchors": ["resqpy/olio/intersection.py:line_line_intersect", "resqpy/olio/intersection.py:point_projected_to_line_2d", "resqpy/olio/intersection.py:point_snapped_to_line_segment_2d", "resqpy/olio/vector_utilities.py:point_distance_to_line_2d", "resqpy/olio/vector_utilities.py:point_distance_to_line_segment_2d"]}
{"id": "C89", "title": "Mesh points in triangles", "statement": "For a regular mesh of points, the search for the points in a list of triangles returns for each triangle exactly the points of the mesh in the triangle or on its boundary, each once, independently of the number of batches the work is divided into. The version which samples a third coordinate returns with each point the coordinate of the triangle there.", "quantifier": "all mesh sizes and spacings other than zero, all lists of triangles, all numbers of batches", "why_tests_cant": "the scan works along the mesh lines with intercepts on edges; upright edges, points on edges and batches of unequal size are special cases for each of the infinitely many positions of a triangle", "anchors": ["resqpy/olio/vector_utilities.py:points_in_triangles_aligned_optimised", "resqpy/olio/vector_utilities.py:points_in_triangles_aligned_optimised_serial", "resqpy/olio/vector_utilities.py:points_in_triangles_aligned_unified", "resqpy/olio/vector_utilities.py:vertical_intercept_nan", "resqpy/olio/vector_utilities.py:vertical_intercept_nan_yz"]}
{"id": "C90", "title": "Faces which represent a surface", "statement": "For an aligned regular grid, each cell face found to represent a triangulated surface is an internal face of the grid, and the line from the centre of the cell before it to the centre of the cell after it meets the triangle returned with the face; the offset is the distance from the face to the point of meeting and the depth is the z value of that point. Every internal face of which that line meets a triangle is found, for any number of batches. In curtain mode the faces found in the first layer are repeated, with their properties, in all layers.", "quantifier": "all grid sizes, all cell sizes, all lists of triangles, all numbers of batches", "why_tests_cant": "whether every crossing is found, with the right triangle, for triangles smaller than a cell, larger than the grid, sloping, and in any position, cannot be settled by sample surfaces; nor the order of properties relative to faces", "anchors": ["resqpy/grid_surface/_find_faces.py:find_faces_to_represent_surface_regular_optimised"]}
{"id": "C91", "title": "Sides of a gridded surface", "statement": "The bisector property of a set of faces in a grid divides the cells into those which can and those which cannot be reached from the first cell without crossing a face, and an error is raised exactly if no cell is cut off. Unless it is asked to be raw, it is true for the side whose mean layer is shallower. The surface is reported to be a curtain exactly if it divides all layers alike.", "quantifier": "all grid sizes, all sets of internal faces, given as arrays or as indices", "why_tests_cant": "connectivity depends on the whole set of faces: the flood fill works in a box around the faces with boundary rules, in repeated passes whose number depends on the shape of the surface", "anchors": ["resqpy/grid_surface/_find_faces.py:bisector_from_faces", "resqpy/grid_surface/_find_faces.py:bisector_from_face_indices", "resqpy/grid_surface/_find_faces.py:get_boundary", "resqpy/grid_surface/_find_faces.py:get_boundary_from_indices", "resqpy/grid_surface/_find_faces.py:_fill_bisector", "resqpy/grid_surface/_find_faces.py:_shallow_or_curtain", "resqpy/grid_surface/_find_faces.py:_set_bisector_outside_box"]}
{"id": "C92", "title": "Sides of a curtain", "statement": "The column bisector of a set of J and I faces is true exactly for the columns which can be reached from the first column without crossing one of the faces.", "quantifier": "all numbers of columns, all sets of column edges", "why_tests_cant": "the flood fill is repeated until nothing changes, over paths of any length and shape", "anchors": ["resqpy/grid_surface/_find_faces.py:column_bisector_from_faces", "resqpy/grid_surface/_find_faces.py:column_bisector_from_face_indices"]}
{"id": "C93", "title": "Shadow of a gridded surface", "statement": "The shadow of a cell is 0 if there are no K faces of the surface in its column, 1 if all are below the cell, 2 if all are above the cell and 3 if there are K faces both above and below it.", "quantifier": "all grid sizes, all sets of internal K faces including the empty set, as arrays or as indices", "why_tests_cant": "two sweeps along columns of any length combine in different ways for every arrangement of faces", "anchors": ["resqpy/grid_surface/_find_faces.py:shadow_from_faces", "resqpy/grid_surface/_find_faces.py:shadow_from_face_indices"]}
{"id": "C94", "title": "Bearings and inclinations", "statement": "The azimuth of a vector is in the range 0 to less than 360 degrees, clockwise from the y axis, and the inclination is in the range 0 to 180 degrees from the z axis; together they determine the direction of the vector: the unit vector rebuilt from them is the unit vector of the vector. Azimuths computed for an array agree with those computed one at a time, as do unit vectors. The angle between two vectors is the angle with the cosine given by their dot product and lengths.", "quantifier": "all vectors, all angles, arrays of vectors including vertical and zero vectors", "why_tests_cant": "the arctangent is taken of y over x or of x over y in eight sectors with corrections; boundaries between sectors and vertical or zero vectors are easily missed", "anchors": ["resqpy/olio/vector_utilities.py:azimuth", "resqpy/olio/vector_utilities.py:azimuths", "resqpy/olio/vector_utilities.py:inclination", "resqpy/olio/vector_utilities.py:unit_vector_from_azimuth", "resqpy/olio/vector_utilities.py:unit_vector_from_azimuth_and_inclination", "resqpy/olio/vector_utilities.py:unit_vectors", "resqpy/olio/vector_utilities.py:radians_difference"]}
{"id": "C95", "title": "Rotation matrices", "statement": "The matrix for a turn about an axis keeps lengths, angles and handedness, leaves the axis in place and turns the next axis towards the one after it by the given angle; turns about an axis add up. The matrix for three angles is the product of three such turns and its reverse undoes it. An array rotated for a cross section keeps all distances and depths and has the target direction along positive x. The matrix for a vector takes the direction of the vector to the z axis and the z axis to the direction of the vector.", "quantifier": "all axes, all angles, all vectors, all lists of points", "why_tests_cant": "signs and orders of factors matter for general angles only, and the sum of squares of sine and cosine must cancel for all of them", "anchors": ["resqpy/olio/vector_utilities.py:rotation_matrix_3d_axial", "resqpy/olio/vector_utilities.py:rotation_3d_matrix", "resqpy/olio/vector_utilities.py:reverse_rotation_3d_matrix", "resqpy/olio/vector_utilities.py:rotate_array", "resqpy/olio/vector_utilities.py:rotate_xyz_array_around_z_axis", "resqpy/olio/vector_utilities.py:rotation_matrix_3d_vector"]}
{"id": "C96", "title": "Tilting", "statement": "Tilting points, or the points of a grid, about a pivot by a dip towards an azimuth leaves the pivot where it is, keeps all distances, leaves points on the level line through the pivot across the azimuth in place, and increases the z value of a point level with the pivot in the direction of the azimuth by the sine of the dip times the distance. Tilting by the opposite dip undoes it.", "quantifier": "all pivots, azimuths and dips, all lists of points", "why_tests_cant": "the direction of tilt is a matter of signs in a product of three matrices, for all angles", "anchors": ["resqpy/olio/vector_utilities.py:tilt_3d_matrix", "resqpy/olio/vector_utilities.py:tilt_points", "resqpy/derived_model/_tilted_grid.py:tilted_grid"]}
{"id": "C97", "title": "Projecting onto a plane", "statement": "Projecting points onto a plane given by a point in it and a normal vector moves each point along the normal to a point in the plane; points in the plane stay in place.", "quantifier": "all planes with a normal other than zero, all lists of points", "why_tests_cant": "planes which are level or upright behave well; the claim is about all normals", "anchors": ["resqpy/olio/vector_utilities.py:project_points_onto_plane"]}
{"id": "C98", "title": "The simple Delaunay triangulation is one", "statement": "dt() with the algorithm simple, given four or more different points which are not all at the same x nor all at the same y, and whatever the container size factor, does not fail: it finds a containing triangle for every point, all lookups of edges succeed, the arrays allocated are large enough, and flipping ends. The triangles returned are of three different points, anticlockwise, with positive area; no point is within the circle through the corners of a triangle; no two triangles overlap. Points all at the same x or y raise an assertion error.", "quantifier": "all lists of points with exact coordinates, of any length from four, without repeats; all container size factors; all orders of the points, including points on edges and four or more points on a circle", "why_tests_cant": "the invariants hold through unboundedly many insertions and flips; degenerate positions (points on edges, cocircular points) are endless and tests meet few of them", "anchors": ["resqpy/olio/triangulation.py: _dt_simple, dt", "resqpy/olio/vector_utilities.py: in_circumcircle, in_triangle_edged, clockwise"]}
{"id": "C99", "title": "A Delaunay triangulation loses no point and its boundary list is right", "statement": "Every point given to dt() with the algorithm simple is a corner of a triangle returned or is in the list of boundary points. The boundary points are listed once each in increasing order, and an edge of a returned triangle is the edge of another returned triangle, in the opposite direction, unless both of its ends are boundary points.", "quantifier": "all lists of four or more different points not all at the same x nor all at the same y; all container size factors", "why_tests_cant": "depends on the whole history of insertions and flips", "anchors": ["resqpy/olio/triangulation.py: _dt_simple, dt"]}
{"id": "C100", "title": "Selecting properties gives exactly those that pass all the filters", "statement": "selective_version_of_collection (and singleton, for a single part) gives exactly the members of the collection that meet every criterion supplied: realization, support, uuid, continuous, categorical, count, points, indexable element, property kind (with the permeability synonyms), facet type, facet, title under the chosen matching mode, time series, time index, unit of measure, string lookup, extra metadata and related objects, with * for any value and none for no value, in the order of the collection.", "quantifier": "all collections of any number of parts with any metadata; all combinations of criteria", "why_tests_cant": "the combinations of about twenty criteria, each with special values, against arbitrary metadata cannot be enumerated", "anchors": ["resqpy/property/property_collection.py: singleton, inherit_parts_selectively_from_other_collection", "resqpy/property/property_common.py: selective_version_of_collection", "resqpy/property/_collection_support.py"]}
{"id": "C101", "title": "Inheriting properties adds exactly the right members and loses none", "statement": "Inheriting all or selected members of another collection keeps the members already there, in order and unaltered, whatever happens; adds exactly the members of the other collection that pass the filters and are not already there; raises for a clash that is not to be ignored. Inheriting the properties similar to an example over time, over realizations or over facets gives exactly the properties that agree with the example in the other identifying attributes.", "quantifier": "all pairs of collections, all queries, all example parts", "why_tests_cant": "needs all combinations of metadata in two collections", "anchors": ["resqpy/property/property_collection.py: inherit_all_parts_from_other_collection, inherit_parts_selectively_from_other_collection, inherit_similar_parts_for_time_series_from_other_collection, inherit_similar_parts_for_facets_from_other_collection, inherit_similar_parts_for_realizations_from_other_collection"]}
{"id": "C102", "title": "Questions about a whole collection are answered for its present members", "statement": "has_single_property_kind, has_single_indexable_element, has_single_uom, has_multiple_realizations and time_set_kind tell the truth about the members of the collection at the time of asking, in whatever order they were added and whatever was asked before; assign_realization_numbers gives the members the numbers from zero in order, changing nothing else.", "quantifier": "all collections, all histories of adding, removing and asking", "why_tests_cant": "depends on the history of the collection and on the order of its members", "anchors": ["resqpy/property/property_collection.py: establish_has_single_property_kind, has_single_property_kind, establish_has_single_indexable_element, establish_has_single_uom, establish_has_multiple_realizations, establish_time_set_kind, assign_realization_numbers"]}
{"id": "C103", "title": "Arrays over realizations, times and facets have each array in its place", "statement": "realizations_array_ref and time_series_array_ref, when they return an array, have the array of each member in the slice of its realization number or time index (with fill_missing, the slices of absent numbers holding the fill value, and one slice for each number up to the greatest), or in the order of the numbers present (without); facets_array_ref has them in the order of the sorted facets it returns. A collection coherent in kind, indexable element, unit and flavour, with distinct numbers, gives an array; an incoherent one is refused.", "quantifier": "all collections, all arrays, any number of realizations, times or facets, in any order, with any gaps", "why_tests_cant": "orders, gaps and repeats of numbers in collections of any size; and the tests of coherence depend on history", "anchors": ["resqpy/property/property_collection.py: realizations_array_ref, time_series_array_ref, facets_array_ref", "resqpy/property/_collection_get_attributes.py: _realizations_array_ref_fill_missing, _realizations_array_ref_not_fill_missing, _time_array_ref_fill_missing, _time_array_ref_not_fill_missing"]}
{"id": "C104", "title": "A masked property array hides exactly the inactive and null elements", "statement": "masked_array, and cached_part_array_ref with masked, hide exactly the elements flagged as inactive in the support (when of matching shape) and, if asked for, those holding the null value; for an array of points the three coordinates of an inactive element are hidden.", "quantifier": "all arrays of any shape, all inactive flags, all null values", "why_tests_cant": "holds or fails by the value of the null value and by the number of axes, over arrays of any shape", "anchors": ["resqpy/property/property_collection.py: masked_array, _masked_array_apply_inactive, cached_part_array_ref, null_value_for_part"]}
{"id": "C105", "title": "Minimum and maximum values kept with a property are those of its data", "statement": "The minimum and maximum kept in the imported list and written to the xml are the least and greatest of the values of the array that are not null and not NaN; none if there is no such value; limits handed in are kept.", "quantifier": "all arrays of any shape, all null values, constant values, all inactive flags", "why_tests_cant": "arrays of any content", "anchors": ["resqpy/property/_collection_get_attributes.py: _min_max_of_cached_array, _get_property_array_min_max_value, _get_property_array_min_max_const, _get_property_array_min_max_array", "resqpy/property/_collection_create_xml.py: _create_xml_property_min_max", "resqpy/property/property_collection.py: add_cached_array_to_imported_list"]}
{"id": "C106", "title": "Normalized property arrays lie between 0 and 1", "statement": "normalized_part_array maps the values that are not hidden and not NaN into the range 0 to 1, keeping order, the least to 0 and the greatest to 1 (0.5 if all are the same), NaN to NaN; with discrete_cycle by remainder; with fix_zero_at zero goes to the position asked for; with use_logarithm by logarithm; all NaN gives the documented result.", "quantifier": "all arrays, all masks, all combinations of arguments", "why_tests_cant": "arithmetic over arbitrary data, with branches on its range", "anchors": ["resqpy/property/property_collection.py: normalized_part_array", "resqpy/property/_collection_get_attributes.py: _normalized_part_array_get_minmax, _normalized_part_array_apply_discrete_cycle, _normalized_part_array_nan_if_masked, _normalized_part_array_use_logarithm, _normalized_part_array_fix_zero_at"]}
{"id": "C107", "title": "Face and edge arrays survive reordering", "statement": "combobulated_face_array and discombobulated_face_array are inverse to each other on arrays of any shape, use the face numbering of grid connection sets, and refuse other shapes; reformat_column_edges_to_resqml_format and reformat_column_edges_from_resqml_format are inverse to each other.", "quantifier": "all arrays of any number of leading axes and any element type", "why_tests_cant": "arrays of any shape and content", "anchors": ["resqpy/property/property_collection.py: combobulated_face_array, discombobulated_face_array", "resqpy/property/property_common.py: reformat_column_edges_to_resqml_format, reformat_column_edges_from_resqml_format", "resqpy/property/grid_property_collection.py: GridPropertyCollection.__init__"]}
{"id": "C108", "title": "Every array of the imported list is written so that it can be read back", "statement": "write_hdf5_for_imported_list writes each array of the list as it would be written on its own: boolean arrays packed if so asked, others with their own element type, so that each is read back with the same values, whatever other arrays are in the list and in whatever order.", "quantifier": "all imported lists of any length, with arrays of any shape and type in any order, and constants", "why_tests_cant": "depends on the sequence of arrays in the list", "anchors": ["resqpy/property/property_collection.py: write_hdf5_for_imported_list, write_hdf5_for_part"]}
{"id": "C109", "title": "A property similar to another has its metadata except where told otherwise", "statement": "add_similar_to_imported_list gives the new property each item of metadata as supplied, none if none is asked for, and otherwise as for the similar property.", "quantifier": "all combinations of supplied and omitted arguments; all metadata of the similar property", "why_tests_cant": "some fifteen independent arguments, each omitted, none or given", "anchors": ["resqpy/property/property_collection.py: add_similar_to_imported_list, add_cached_array_to_imported_list"]}
{"id": "C110", "title": "The tests for a point in a polygon or triangle by crossings are right for every polygon", "statement": "point_in_polygon says whether an odd number of edges meet the ray from the point towards increasing x; the answer does not depend on the starting vertex, the direction or a repeated closing vertex; when a polygon is cut in two along a diagonal a point inside is in exactly one part; point_in_triangle agrees with it for every triangle and has every strictly interior point inside and no exterior one; points_in_polygon, points_in_polygons, points_in_triangles_njit and mesh_points_in_triangle list exactly the points inside.", "quantifier": "all polygons with any number of vertices (also self-intersecting and degenerate), all triangles, all points, all lists of them", "why_tests_cant": "points on edges and level with vertices decide these tests; infinitely many polygons", "anchors": ["resqpy/olio/vector_utilities.py: point_in_polygon, point_in_triangle, points_in_polygon, points_in_triangle, mesh_points_in_triangle, points_in_polygons, points_in_triangles_njit"]}
{"id": "C111", "title": "The matrix of points in triangles is right whichever way the triangles turn", "statement": "points_in_triangles gives a row for each triangle with an element for each point, which is set exactly when the point is strictly inside the triangle in the projection, or, when edged, inside or on its boundary, whichever way the corners go round.", "quantifier": "all triangles and points in two or three dimensions, three projections, edged or not", "why_tests_cant": "triangles in either direction and without area; arrays of any length", "anchors": ["resqpy/olio/vector_utilities.py: points_in_triangles, clockwise, clockwise_triangles, projected_axes"]}
{"id": "C112", "title": "Cells of a regular mesh with their middle in a triangle are all found, once each", "statement": "points_in_triangles_aligned, and its numba versions, list exactly the triangle number with the J and I indices of the cells of the mesh whose middle is in the triangle, no row twice; every cell with its middle strictly inside is there, none with its middle outside.", "quantifier": "all numbers of rows and columns, all positive spacings, all lists of triangles, also those reaching outside the mesh", "why_tests_cant": "the search is limited to a box worked out by rounding, for any triangle position", "anchors": ["resqpy/olio/vector_utilities.py: points_in_triangles_aligned, points_in_triangles_aligned_optimised"]}
{"id": "C113", "title": "Area, normal and circumcentre of a triangle", "statement": "area_of_triangle and area_of_triangles give half the length of the cross product of two sides (or half the signed area without sign when projected); triangle_normal_vector has length one and is at right angles to the sides unless the corners are in line; ccc returns the one point at equal distance from three points, None exactly when they are in line.", "quantifier": "all triangles in three dimensions, including those without area", "why_tests_cant": "algebraic identities over all real coordinates", "anchors": ["resqpy/olio/vector_utilities.py: area_of_triangle, area_of_triangles, triangle_normal_vector, triangle_normal_vector_numba", "resqpy/olio/triangulation.py: ccc"]}
{"id": "C114", "title": "Nearest points and sorted points", "statement": "nearest_point_projected returns the first of the points at the least distance in the projection, ignoring points with NaN; clockwise_sorted_indices returns the given indices reordered by azimuth about the mean of the points, going round clockwise; xy_sorted returns the points reordered along the axis given or that of greater range.", "quantifier": "all lists of points of any length, all projections and axes", "why_tests_cant": "points of any number and position, with ties", "anchors": ["resqpy/olio/vector_utilities.py: nearest_point_projected, point_distance_sqr_to_points_projected, clockwise_sorted_indices, xy_sorted, xy_sorted_njit"]}
{"id": "C115", "title": "Half cell transmissibilities follow from the corner points of each cell alone", "statement": "half_cell_t_irregular gives for each face of each cell Darcy constant times permeability times net to gross (not K) times the projected area of the face along the vector from the cell centre to the face centre over the square of its length, and no value where that vector is shorter than the tolerance; for a box lying any way this is area over half length; half_cell_t_regular agrees with it for axes at right angles; moving the grid changes nothing.", "quantifier": "all grids, with or without split pillars and K gaps, all permeabilities and net to gross ratios, all faces", "why_tests_cant": "cells of any shape in grids of any size; agreement of two implementations", "anchors": ["resqpy/olio/transmission.py: half_cell_t, half_cell_t_regular, half_cell_t_irregular, projected_tri_area"]}
{"id": "C116", "title": "Transmissibilities between cells put two half cells in series and do not depend on the history of calls", "statement": "Grid.transmissibility holds for each inner face the value whose reciprocal is the sum of the reciprocals of the two half cell values, zero for outer faces, at K gaps, split column faces and where a half cell value is missing or below the tolerance; each value is at most either half cell value and at least half the smaller; stored transmissibility properties are returned as they are, by direction or from the composite array; repeated calls agree, calls for a realization use and change no cache.", "quantifier": "all extents, all half cell values, all histories of calls, stored properties present or not, all modifier modes", "why_tests_cant": "every combination of cached arrays and options; arrays of any extent", "anchors": ["resqpy/grid/_transmissibility.py: transmissibility, half_cell_transmissibility"]}
{"id": "C117", "title": "Juxtaposition across a fault gives the true fractions of overlap", "statement": "For two columns on either side of a split column face the fractions found for a pair of layers are the area of overlap over the areas of the two faces, pairs that do not overlap are not listed, fractions lie between zero and one, those of one face do not sum to more than one, and no exception is raised; fault connection lists hold exactly these pairs, without inactive cells if so asked.", "quantifier": "all depths of layers on the four pillars, any number of layers, K gaps, any tolerance", "why_tests_cant": "thirty-six ways two quadrilaterals can cross, for all real depths", "anchors": ["resqpy/olio/transmission.py: fault_connection_set, fault_connection_set.juxtapose"]}
{"id": "C118", "title": "Half cell transmissibilities of vertical prism grids", "statement": "For a vertical prism grid the five values of a cell are, in the order of the faces of the cell, Darcy constant times permeability times area over distance from the cell centre to the face: for top and base the area of the triangle seen from above over half the mean thickness, for sides the height times the width of the side across the direction of flow; triple permeabilities lie between the primary and orthogonal values and follow the ellipse through them; a stored property is used.", "quantifier": "all triangles, thicknesses, permeabilities, net to gross ratios, azimuths", "why_tests_cant": "identities over all real coordinates; order of faces for every cell", "anchors": ["resqpy/olio/transmission.py: half_cell_t_vertical_prism, half_cell_t_2d_triangular_precursor", "resqpy/unstructured/_prism_grid.py: VerticalPrismGrid.triple_horizontal_permeability, VerticalPrismGrid.half_cell_transmissibility, VerticalPrismGrid.column_count"]}
{"id": "C119", "title": "Topology of unstructured grids: packed lists, the cells either side of each face, nodes and edges of cells", "statement": "For every unstructured grid a row read from the packed faces of cells or nodes of faces is the row stored; the cells either side of each face are found exactly when no face is used more than twice, external faces are those used once and internal ones those used twice, also with some cells left out; the distinct nodes and edges of a cell are those of its faces, each once; the edges of a face join successive nodes round it; pyramids are recognised whatever the order of their faces.", "quantifier": "all grids with any numbers of cells, faces and nodes, all masks, valid or not", "why_tests_cant": "arbitrary topologies of any size, valid or not, and histories of calls", "anchors": ["resqpy/unstructured/_unstructured_grid.py: UnstructuredGrid.set_cells_per_face, masked_cells_per_face, external_face_indices, external_face_indices_for_masked_cells, internal_face_indices_for_masked_cells, face_count_for_cell, max_face_count_for_any_cell, node_count_for_face, node_indices_for_face, distinct_node_indices_for_cell, face_indices_for_cell, edges_for_face, edges_for_face_with_node_indices_ordered_within_pairs, distinct_edges_for_cell", "resqpy/unstructured/_pyramid_grid.py: PyramidGrid.face_indices_for_cell"]}
{"id": "C120", "title": "A hexahedral grid made from a block grid is the same grid", "statement": "HexaGrid.from_unsplit_grid gives a valid unstructured grid of any extent: the six faces of each cell have the corners of the faces of the block grid cell, two cells share a face exactly when they are neighbours, external faces are those of the outside of the block, corner points of cells agree with those of the block grid, and so do volumes.", "quantifier": "all extents, all positions of the points, both handednesses", "why_tests_cant": "index arithmetic for all extents; volumes for all real coordinates", "anchors": ["resqpy/unstructured/_hexa_grid.py: HexaGrid.from_unsplit_grid, HexaGrid.corner_points, HexaGrid.volume, HexaGrid.face_indices_for_cell"]}
{"id": "C121", "title": "The edges of a triangulation and the triangles either side of them", "statement": "edges lists each pair of points joined by a side of a triangle once, lower index first, in increasing order, with the number of times triangles use it; rim edges are those used once and internal edges those used twice; the triangles using a point, an edge or each of a list of edges are exactly those with these corners.", "quantifier": "all lists of triangles", "why_tests_cant": "any number of triangles sharing edges in any way", "anchors": ["resqpy/olio/triangulation.py: edges, triangles_using_point, triangles_using_edge, triangles_using_edges, rim_edges, internal_edges"]}
{"id": "C122", "title": "The rims of a surface are closed loops using every rim edge once", "statement": "rims terminates; the rims it returns are closed loops, each edge joining the points either side of it, and together they use every edge exactly once; it succeeds exactly when an even number of edge ends meet at each point, and hence for every triangulation in which no edge is used by more than two triangles, whatever holes it has, in however many pieces, and even where pieces touch at a point.", "quantifier": "all lists of edges; all triangulations with at most two triangles on an edge", "why_tests_cant": "termination and success of a greedy search for all graphs", "anchors": ["resqpy/olio/triangulation.py: rims, _find_unused, _first_false"]}
{"id": "C123", "title": "A vertical prism grid made from surfaces has the columns of the triangulation and the layers between the surfaces", "statement": "VerticalPrismGrid.from_surfaces makes, for any triangulation and any number of surfaces from two, a cell for each triangle and layer; its five faces are the triangles on the surfaces above and below and the faces below the three edges; cells share faces exactly where they touch; the topology is valid exactly when no edge belongs to more than two triangles; the external faces are the top, the bottom and the sides on rim edges; corner points of a cell are those of its triangle on the two surfaces; z values are those of the last surface met, hence thicknesses are never negative if the surfaces are in order; the triangulation given back is the original.", "quantifier": "all triangulations, all numbers of points and surfaces, all positions of the surfaces with or without gaps", "why_tests_cant": "index arithmetic and a search by halving, for all sizes", "anchors": ["resqpy/unstructured/_prism_grid.py: VerticalPrismGrid.from_surfaces, cell_centre_point, corner_points, column_count, triangulation"]}
{"id": "C124", "title": "Cells of unstructured grids are divided into tetrahedra whose volumes add up to that of the cell", "statement": "UnstructuredGrid.volume of a cell is the sum of the volumes of the tetrahedra between the triangles of its faces and its centre; this is the volume enclosed by the faces whenever the centre sees all of them from inside; the tetrahedra share faces exactly where their triangles share sides; for vertical prisms the volume is area times mean thickness whatever the diagonals used; a tetrahedral cell has the volume of the tetrahedron; the pyramid formula uses the node not on the base as apex.", "quantifier": "all cells with any number of faces and nodes in any numbering, all triangulations of the faces, all real coordinates", "why_tests_cant": "polyhedra of any shape over all real coordinates", "anchors": ["resqpy/unstructured/_unstructured_grid.py: UnstructuredGrid.volume, cell_centre_point, face_centre_point, face_triangulation", "resqpy/unstructured/_tetra_grid.py: TetraGrid.from_unstructured_cell, TetraGrid.volume", "resqpy/unstructured/_pyramid_grid.py: PyramidGrid.volume", "resqpy/unstructured/_prism_grid.py: VerticalPrismGrid.cell_centre_point"]}
{"id": "C125", "title": "A blocked well derived from a table of cells visits those cells in order along a connected path", "statement": "BlockedWell.derive_from_dataframe, derive_from_cell_list, set_for_column and derive_from_wellspec make, for any table of cells of the grid, a blocked well with the cells of the rows in order; there is one interval between each two nodes, blocked or not, and as many blocked intervals as cells; the interval of each cell goes from the face by which the cell is entered to that by which it is left, unblocked intervals being added exactly where successive faces are apart; where successive cells are neighbours the face between them is used for both; measured depths start at zero and increase by the lengths of the path.", "quantifier": "all tables of any length with any cells, missing values and grid names, all corner point geometries", "why_tests_cant": "unbounded sequences of cells, with gaps and turns anywhere", "anchors": ["resqpy/well/_blocked_well.py: BlockedWell.derive_from_dataframe, derive_from_cell_list, derive_from_wellspec, set_for_column, __fabricate_entry_axis_and_polarity_using_indices, __add_interval"]}
{"id": "C126", "title": "The table of a blocked well has a row for exactly the intervals within all limits", "statement": "BlockedWell.dataframe gives, for any limits (active cells, layers, depth, saturations, regions, perforations, length, permeability thickness), exactly one row for each blocked interval which satisfies all of them, in order along the well, with the cell, the perforated fraction, the length (by measured depth or straight) times that fraction, permeability thickness and mid point measured depth; it succeeds whenever the data needed for the limits are there; BlockedWell.static_kh is the sum of permeability thickness over those rows; columns taken from properties obey the same limits; with add_as_properties the columns can be kept as properties of the well.", "quantifier": "all blocked wells, any number of intervals, all combinations of limits and columns", "why_tests_cant": "every combination of limits and of values per interval", "anchors": ["resqpy/well/_blocked_well.py: BlockedWell.dataframe, static_kh, __skip_interval_check, __get_part_perf_fraction_for_interval, __get_length_of_interval, __get_kh_for_interval, __get_xyz_if_doing_xyz, add_df_properties"]}
{"id": "C127", "title": "Permeability thickness of an interval is its length times the permeability across it", "statement": "The KH column of BlockedWell.dataframe is, for positive permeabilities in the directions of the axes of the cell, the length of the interval times the square root of the determinant of permeability in the plane normal to its direction; so it lies between the values for the least and the greatest permeability, does not depend on the signs of the angles, agrees for isotropic and vertical cases with the shortcuts, and never raises if permeabilities are not negative; net to gross scales horizontal permeability, with perforations preferentially in pay if so asked; the permeability along i stands for the others if these are not given.", "quantifier": "all lengths, permeabilities, angles, net to gross ratios and perforated fractions", "why_tests_cant": "real valued inputs", "anchors": ["resqpy/well/_blocked_well.py: BlockedWell.dataframe, __verify_perm_i_uuid_for_kh, __verify_perm_j_k_uuids_for_kh_and_well_inflow, __get_kh_for_interval, __get_kh_if_doing_kh"]}
{"id": "C128", "title": "Equivalent radius and well index of an interval follow Peaceman", "statement": "The RADB column of BlockedWell.dataframe is, for an interval along an axis of the cell, the equivalent radius of Peaceman for the two other directions, and for other directions the combination of the three as components of a vector; it does not depend on the radius of the well or the unit of permeability, scales with the size of the cell and is always found for permeabilities which are not negative; WI is 2 pi over the logarithm of the ratio of radii plus skin, and nought where there is no permeability across the well; WI is positive.", "quantifier": "all permeabilities, sizes of cells, angles, radii and skins", "why_tests_cant": "real valued inputs", "anchors": ["resqpy/well/_blocked_well.py: BlockedWell.dataframe, __get_pc_arrays_for_interval, __calculate_ke_and_radw_e, __calculate_radb_e, __get_well_inflow_parameters_for_interval"]}
{"id": "C129", "title": "The angles of an interval of a blocked well say what its direction is", "statement": "The ANGLV and ANGLA columns of BlockedWell.dataframe give, for any cell shape and any reference, the angle between the interval and the reference direction (0 to 180 degrees) and the angle, seen along the reference, from the I axis of the cell to the interval (-180 to 180), so that the direction of the interval can be put together again from them; the reference is always a direction and never horizontal, downward references pointing down; intervals through top and base are vertical if that is asked for; all this whatever the units and coordinate reference systems of grid and trajectory.", "quantifier": "all entry and exit points, cell axes, references, units and directions of z", "why_tests_cant": "real valued inputs in every direction", "anchors": ["resqpy/well/_blocked_well.py: BlockedWell.dataframe, __get_ref_vector, __verify_angle_references, __get_angles_for_interval, __get_angla_for_interval, __get_anglv_for_interval", "resqpy/olio/vector_utilities.py: unit_vector, clockwise"]}
{"id": "C130", "title": "Places along a polyline are at the distances asked for", "statement": "For every polyline, full_length is the sum of the lengths of its segments; interpolated_point gives, for a fraction from 0 to 1, the point at that fraction of the length along it, and equidistant_points as many points as asked for at equal distances; balanced_centre is the centroid by length, which is within the convex hull of the nodes; trimming to a run of segments and scaling about the centre give the lengths and ends expected; all whatever has been asked before.", "quantifier": "all polylines, open or closed, of any number of nodes; all fractions and factors", "why_tests_cant": "real valued coordinates; any number of nodes; histories of calls with cached results", "anchors": ["resqpy/lines/_polyline.py: Polyline.full_length, segment_length, segment_midpoint, interpolated_point, equidistant_points, balanced_centre, from_scaled_polyline, from_trimmed_polyline"]}
{"id": "C131", "title": "Convexity, sense of rotation and area of closed polylines", "statement": "is_convex is true for a closed polyline just if it bounds a convex polygon; is_clockwise is true just if it goes round clockwise on the map, for every order of the axes of the coordinate reference system; the area is that of the polygon; segment normals of a polygon point outwards. None of the answers depends on which has been asked before.", "quantifier": "all closed polylines of any number of nodes, all axis orders", "why_tests_cant": "all shapes of polygons and all histories of calls", "anchors": ["resqpy/lines/_polyline.py: Polyline.is_convex, is_clockwise, segment_normal, area"]}
{"id": "C132", "title": "Nearest points, intersections and crossings of polylines", "statement": "closest_segment_and_distance_to_point_xy gives a segment and distance such that no point of the polyline is nearer; a point is snapped to the nearest point of a segment; first_line_intersection finds the first segment met by a line or half line, and nothing just if there is none; xy_crossings lists all places where two polylines cross, each once.", "quantifier": "all polylines, points and lines", "why_tests_cant": "real valued coordinates; any number of nodes", "anchors": ["resqpy/lines/_polyline.py: Polyline.closest_segment_and_distance_to_point_xy, point_snapped_to_segment_xy, segment_xyz_from_xy, first_line_intersection, xy_crossings", "resqpy/olio/vector_utilities.py: point_distance_to_line_segment_2d"]}
{"id": "C133", "title": "Normalised coordinates within a convex polygon can be turned back", "statement": "For every convex polygon and each point within it or on its edge, normalised_xy gives a pair of numbers between 0 and 1, and denormalised_xy of that pair in the same mode gives the point back; denormalised_xy of any pair between 0 and 1 is a point of the polygon.", "quantifier": "all convex polygons, clockwise or not, of any number of nodes; all points; modes square, circle and perimeter", "why_tests_cant": "real valued coordinates in every direction from the centre", "anchors": ["resqpy/lines/_polyline.py: Polyline.normalised_xy, denormalised_xy, first_line_intersection, interpolated_point, balanced_centre"]}
{"id": "C134", "title": "Regular polygons are regular", "statement": "Polyline.for_regular_polygon with at least three nodes and a positive radius gives a closed polyline with that number of nodes, all at the given distance from the centre and at its depth, with sides of equal length; it is convex, and its area as reported is that of the regular polygon. Other numbers of nodes and radii are refused.", "quantifier": "all numbers of nodes, radii and centres", "why_tests_cant": "any number of nodes; real valued sines and cosines", "anchors": ["resqpy/lines/_polyline.py: Polyline.for_regular_polygon, is_convex, area"]}
{"id": "C135", "title": "The flags of closed polylines survive being stored", "statement": "Whichever polylines of a set are closed, the compact form in which the flags are written (one value for all, or the value of most with a list of the others) is read back as the same flags in the same order.", "quantifier": "all sequences of flags", "why_tests_cant": "any number of polylines with any mixture of flags", "anchors": ["resqpy/lines/_polyline_set.py: PolylineSet.bool_array_format, create_xml, write_hdf5, get_bool_array"]}
{"id": "C136", "title": "A set of polylines which is stored and loaded again holds the same polylines", "statement": "A set made of polylines of one crs, each of two points or more, which is written and loaded again has the same polylines in the same order, each closed or open as it was and with the same points. (Not so: a closed polyline of more than two points ending where it began loses its last point; a set in which the first polyline occurs again is refused.)", "quantifier": "all lists of polylines", "why_tests_cant": "any number of polylines of any sizes; the lines are concatenated and cut apart by running counts", "anchors": ["resqpy/lines/_polyline_set.py: PolylineSet.combine_polylines, write_hdf5, create_xml, _load_from_xml, convert_to_polylines"]}
{"id": "C137", "title": "Every patch of a polyline set is loaded", "statement": "Loading a polyline set gives the polylines of all its patches. (Not so: the arrays of the first patch are kept and used for the later ones, whose own points make no difference; a set of a single patch is loaded properly.)", "quantifier": "all polyline sets, by whichever software written", "why_tests_cant": "the number of patches is not bounded, and sets written by this library have one patch only", "anchors": ["resqpy/lines/_polyline_set.py: PolylineSet._load_from_xml, get_bool_array, convert_to_polylines", "resqpy/lines/_common.py: load_hdf5_array", "resqpy/model/_hdf5.py: _h5_array_element"]}
{"id": "C138", "title": "Combining polylines converts them to one crs without changing them", "statement": "Combining polylines gives the points of all of them in the crs of the first, in order, and leaves the polylines as they were, so that combining again gives the same. A set made from polylines of more than one crs is refused. (Not so: a polyline of another crs has its points converted in place while keeping its crs, and is converted again the next time.)", "quantifier": "all lists of polylines with any crs, and all conversions keeping the number of points", "why_tests_cant": "histories of repeated combining and writing, and all conversions", "anchors": ["resqpy/lines/_polyline_set.py: PolylineSet.__init__, combine_polylines, write_hdf5", "resqpy/crs.py: Crs.convert_array_to"]}
{"id": "C139", "title": "Charisma fault stick files are read as the sticks they hold", "statement": "Reading a charisma file gives the sticks of two points or more in order, each with all its points; polylines written to such a file and read from it are the same. (Not so: a last stick of a single point is joined to an earlier stick; closed polylines become open.)", "quantifier": "all files of sticks, and all lists of polylines", "why_tests_cant": "any number of sticks of any lengths; the loop counts points and removes single ones as it goes", "anchors": ["resqpy/lines/_polyline_set.py: PolylineSet.convert_to_charisma, _set_from_charisma, convert_to_polylines"]}
{"id": "C140", "title": "Irap files are read as the lines they hold", "statement": "Reading an irap file gives the lines of two points or more in order, each closed if its ends are within tolerance; polylines written to such a file and read from it have the same points. (Not so: a first line of a single point makes an exception; a closed polyline which does not repeat its first point becomes open; when the first polyline occurs again, those written before it are lost.)", "quantifier": "all files of lines, and all lists of polylines", "why_tests_cant": "any number of lines of any lengths, and all coordinates", "anchors": ["resqpy/lines/_polyline_set.py: PolylineSet.convert_to_irap, _set_from_irap, convert_to_polylines", "resqpy/olio/simple_lines.py: read_lines"]}
{"id": "C141", "title": "A surface made from a mesh has the triangles of its quadrangles, and columns are found again", "statement": "A Surface made from an untorn mesh of points (at least two rows and columns) or from a torn mesh has two triangles for each quadrangle, or four around its centre if asked for, with the corner points of the quadrangle; together they cover it without overlap. column_from_triangle_index gives for every triangle the row and column of its quadrangle, and nothing for numbers past the last triangle. Meshes which are too small are refused.", "quantifier": "all numbers of rows and columns, all points, both ways of dividing", "why_tests_cant": "any size of mesh and every triangle number", "anchors": ["resqpy/surface/_triangulated_patch.py: TriangulatedPatch.set_from_irregular_mesh, set_from_torn_mesh, column_from_triangle_index", "resqpy/surface/_surface.py: Surface.set_from_irregular_mesh, set_from_torn_mesh, column_from_triangle_index"]}
{"id": "C142", "title": "A surface made from a mesh with undefined nodes uses exactly what is defined", "statement": "A Surface made from a mesh in which nodes may have no depth has as its points the defined nodes, row by row, and as its triangles those of each quadrangle with four defined corners and the one of each quadrangle with three; nothing for the others.", "quantifier": "all sizes of mesh, all points, all patterns of undefined nodes", "why_tests_cant": "any pattern of undefined nodes", "anchors": ["resqpy/surface/_triangulated_patch.py: TriangulatedPatch.set_from_sparse_mesh, get_indices_from_sparse_meshxyz"]}
{"id": "C143", "title": "The faces of cells as a surface: triangles on their faces, closed, and found again by number", "statement": "A Surface made for the faces of one or many cells has for each face the two triangles, or the four around its centre, which go round the corners of that face; the triangles of a cell close up; and the cell, axis and side found for the number of a triangle are those of its face, both by the method of the surface and by that of the patch.", "quantifier": "all numbers of cells, all corner points, all faces and triangles, both ways of dividing", "why_tests_cant": "any number of cells and every triangle number", "anchors": ["resqpy/surface/_triangulated_patch.py: TriangulatedPatch.set_to_cell_faces_from_corner_points, face_from_triangle_index", "resqpy/surface/_surface.py: Surface.set_to_multi_cell_faces_from_corner_points, cell_axis_and_polarity_from_triangle_index"]}
{"id": "C144", "title": "Trimming a surface keeps exactly the triangles asked for", "statement": "Trimming a patch against a box, a polygon or both keeps the triangles with all of their corners inside, or those with any, in their order and with the same corner points; the points kept are those in use, each once and in their order. Trimming against nothing is refused.", "quantifier": "all triangles and points, all boxes and polygons, both rules", "why_tests_cant": "any surface and any trimming volume", "anchors": ["resqpy/surface/_triangulated_patch.py: TriangulatedPatch.set_to_trimmed_patch", "resqpy/surface/_surface.py: Surface.set_to_trimmed_surface"]}
{"id": "C145", "title": "Splitting a surface along a line", "statement": "Splitting a surface along a straight line in plan view gives the triangles with some corner on the right of the line or on it, moved by the first offset, and those with some corner on the left or on it, moved by the second, with no points to spare. No triangle is lost; one wholly to one side is moved with that side only.", "quantifier": "all surfaces, lines and offsets", "why_tests_cant": "any surface and line", "anchors": ["resqpy/surface/_surface.py: Surface.set_to_split_surface"]}
{"id": "C146", "title": "The arrays of several patches or surfaces together, at any time", "statement": "The triangles and points of a Surface with several patches, or of a CombinedSurface, are those of the patches one after the other, every triangle with the corner points it has in its patch; surface_index_for_triangle_index names the surface and the triangle in it. At any time triangles_and_points gives the arrays of the patches with which the surface was populated last.", "quantifier": "all lists of patches and surfaces, all triangle numbers, all histories of populating, rescaling and asking", "why_tests_cant": "any history of calls", "anchors": ["resqpy/surface/_surface.py: Surface.triangles_and_points, set_from_triangles_and_points, set_multi_patch_from_triangles_and_points, decache_triangles_and_points", "resqpy/surface/_combined_surface.py: CombinedSurface.surface_index_for_triangle_index, triangles_and_points"]}
{"id": "C147", "title": "A sail is a triangle of nodes on a sphere", "statement": "set_to_sail gives rows of 1, 2, 3 \u2026 nodes on the sphere with the given centre and radius, the rows one step of dip apart and the nodes of a row one step of azimuth apart and centred on the given azimuth, and the n\u00b2 triangles between neighbouring nodes.", "quantifier": "all numbers of rows, centres, radii, azimuths and steps", "why_tests_cant": "any number of rows; sines and cosines", "anchors": ["resqpy/surface/_triangulated_patch.py: TriangulatedPatch.set_to_sail"]}
{"id": "C148", "title": "A horizontal plane covers its box", "statement": "set_to_horizontal_plane gives two (or four) triangles at the given depth which cover the box widened by the border and do not reach beyond it.", "quantifier": "all boxes, borders and depths", "why_tests_cant": "any box and border", "anchors": ["resqpy/surface/_triangulated_patch.py: TriangulatedPatch.set_to_horizontal_plane"]}
{"id": "C149", "title": "Rescaling depths stretches from the reference depth", "statement": "Surface.vertical_rescale_points moves every depth to the factor times its distance from the reference depth, which is the least depth of the surface if not given.", "quantifier": "all surfaces, factors and reference depths, loaded or not", "why_tests_cant": "any surface in any state of loading", "anchors": ["resqpy/surface/_surface.py: Surface.vertical_rescale_points", "resqpy/surface/_triangulated_patch.py: TriangulatedPatch.vertical_rescale_points"]}
{"id": "C150", "title": "Reading a GOCAD surface keeps vertices and triangles", "statement": "set_from_tsurf_file gives the vertices of the file in their order and triangles with the corners named in the file, whatever the number of the first vertex and the order of the lines; vertices numbered out of sequence are refused.", "quantifier": "all files of vertices (numbered on), triangles and other lines in any order", "why_tests_cant": "any file", "anchors": ["resqpy/surface/_surface.py: Surface.set_from_tsurf_file"]}
{"id": "C151", "title": "Storing with reuse adds a feature or interpretation only if the model has none like it", "statement": "create_xml with reuse leaves the model as it is and gives the object the uuid of a part of its class which is equivalent, if there is one; otherwise it adds one part. Storing equal features any number of times, with anything in between, leaves one part.", "quantifier": "all classes of features and interpretations, all models, all attributes", "why_tests_cant": "any content of the model and any history of additions", "anchors": ["resqpy/olio/base.py: BaseResqpy.try_reuse", "resqpy/organize/boundary_feature.py: BoundaryFeature.create_xml", "resqpy/organize/genetic_boundary_feature.py: GeneticBoundaryFeature.create_xml, is_equivalent"]}
{"id": "C152", "title": "Features and interpretations are equivalent exactly if their contents agree", "statement": "is_equivalent says yes exactly if the two objects are of one class and are the same part, or agree in title, feature, attributes of their class and, if asked for, metadata.", "quantifier": "all pairs of objects of all classes, with and without metadata", "why_tests_cant": "any pair of objects", "anchors": ["resqpy/organize/horizon_interpretation.py: HorizonInterpretation.is_equivalent", "resqpy/organize/fault_interpretation.py: FaultInterpretation.is_equivalent", "resqpy/strata/_geologic_unit_interpretation.py: GeologicUnitInterpretation.is_equivalent", "resqpy/strata/_stratigraphic_unit_interpretation.py: StratigraphicUnitInterpretation.is_equivalent"]}
{"id": "C153", "title": "Features and interpretations are loaded as they were stored", "statement": "A feature or interpretation which is stored, with its feature stored, is loaded with the same title, metadata and attributes of its class, whatever is added to the model afterwards.", "quantifier": "all classes, all attributes, all models and later additions", "why_tests_cant": "any attributes and any later additions", "anchors": ["resqpy/organize/fault_interpretation.py: FaultInterpretation.create_xml, _load_from_xml", "resqpy/organize/geobody_interpretation.py: GeobodyInterpretation.create_xml, _load_from_xml", "resqpy/organize/horizon_interpretation.py: HorizonInterpretation.create_xml, _load_from_xml", "resqpy/strata/_stratigraphic_unit_interpretation.py: StratigraphicUnitInterpretation.create_xml, _load_from_xml"]}
{"id": "C154", "title": "Stratigraphic columns: units, contacts and ranks in order, stored and loaded", "statement": "The units of a rank are those given, numbered from zero in their order, and found by number; contacts made from horizons lie between neighbouring units, the lower one the older; wrong numbers of horizons are refused. The ranks of a column are those added, in the order of their numbers whatever the order of adding. Ranks and columns are loaded as they were stored; a column with the ranks and metadata of a stored one is not added again.", "quantifier": "all lists of units, horizons and ranks, all models", "why_tests_cant": "any number of units and ranks in any order", "anchors": ["resqpy/strata/_stratigraphic_column_rank.py: StratigraphicColumnRank.set_units, set_contacts_from_horizons, unit_for_unit_index, create_xml", "resqpy/strata/_stratigraphic_column.py: StratigraphicColumn.add_rank, is_equivalent, create_xml", "resqpy/strata/_binary_contact_interpretation.py: BinaryContactInterpretation"]}
{"id": "C155", "title": "A measured depth is found in the interval of a wellbore frame it lies in", "statement": "interval_for_md gives the interval of the frame in which a measured depth lies, with its fraction of the way down, -1 above the first node and the number of the last node below the last; a depth at a fraction strictly within an interval is found again in that interval with that fraction.", "quantifier": "all frames with strictly increasing depths, all depths", "why_tests_cant": "any number of nodes at any spacing", "anchors": ["resqpy/well/_wellbore_frame.py: WellboreFrame.interval_for_md"]}
{"id": "C156", "title": "Contributions of frame intervals to blocked well cells are the overlaps of the two", "statement": "blocked_well_frame_contributions_list has one entry for each cell along the well; it lists the frame intervals with some length in the cell, in order, with the fraction of the interval in the cell and of the cell in the interval. The fractions of a cell sum to one if it is within the frame, and those of an interval sum to one if all of the well there is in cells, and never to more.", "quantifier": "all frames, all blocked wells with increasing depths and any stretches outside of cells", "why_tests_cant": "any interleaving of nodes and cell boundaries", "anchors": ["resqpy/well/blocked_well_frame.py: blocked_well_frame_contributions_list"]}
{"id": "C157", "title": "Blocked well properties from a wellbore frame are the length weighted ones", "statement": "add_blocked_well_properties_from_wellbore_frame gives each cell the length and fraction of active intervals in it, the active interval with most length in it, the permeability thickness of intervals in proportion to their length in it (so that none is lost or made), the length weighted mean skin, the greatest radius, and marks it as active or open if an active or open interval has some length in it.", "quantifier": "all frames, blocked wells and values of the interval properties, missing ones included", "why_tests_cant": "any interleaving of nodes and cell boundaries and any values", "anchors": ["resqpy/well/blocked_well_frame.py: add_blocked_well_properties_from_wellbore_frame"]}
{"id": "C158", "title": "Arrays written to text files are read again", "statement": "load_array_from_ascii_file gives the array which write_array_to_ascii_file has written: integers and booleans exactly, real numbers rounded to the decimals asked for (so exactly if they have no more), missing ones as the substitute; whatever the columns, separators, blank lines, comments at the head and keyword, and also from among other arrays in one file.", "quantifier": "all arrays of all extents, all options of writing and reading which fit together, all surrounding text", "why_tests_cant": "any values, extents and options", "anchors": ["resqpy/olio/write_data.py: write_array_to_ascii_file", "resqpy/olio/load_data.py: load_array_from_ascii_file", "resqpy/olio/keyword_files.py: guess_comment_char, find_keyword, skip_blank_lines_and_comments"]}
{"id": "C159", "title": "Text files with the wrong number of values are refused", "statement": "load_array_from_ascii_file fails if the file has fewer or more numbers than the extent asks for.", "quantifier": "all arrays, extents and options", "why_tests_cant": "any difference of sizes", "anchors": ["resqpy/olio/load_data.py: load_array_from_ascii_file"]}
{"id": "C160", "title": "Binary copies of text arrays never show in what is loaded", "statement": "load_array_from_file with use_binary gives what the text file holds, after any history of loading it and writing it again.", "quantifier": "all histories, with times which do not decrease and may be equal; all options", "why_tests_cant": "any order and timing of loads and writes", "anchors": ["resqpy/olio/load_data.py: load_array_from_file, file_exists", "resqpy/olio/write_data.py: write_array_to_ascii_file, write_pure_binary_data"]}
{"id": "C161", "title": "Points of a regular grid do not depend on how they are asked for", "statement": "For a RegularGrid, point_raw, corner_points and slice_points give the node reached from the origin by k, j and i of the steps, for one cell or for all, with arrays kept or not, aligned or not, whatever methods were called before; neighbouring cells share corners.", "quantifier": "all extents, origins and steps, all sequences of calls of point_raw, corner_points and centre_point", "why_tests_cant": "any history of calls and of arrays kept", "anchors": ["resqpy/grid/_regular_grid.py: RegularGrid.__init__, make_regular_points_cached, point_raw, corner_points, slice_points, _set_is_aligned", "resqpy/grid/_points_functions.py: corner_points"]}
{"id": "C162", "title": "Centres of cells of a regular grid are the means of their corners", "statement": "centre_point of a RegularGrid gives the mean of the eight corners, for one cell or all, whatever was called before, and aligned_column_centres its x and y.", "quantifier": "all extents, origins and steps, all sequences of calls", "why_tests_cant": "any history of calls", "anchors": ["resqpy/grid/_regular_grid.py: RegularGrid.centre_point, aligned_column_centres"]}
{"id": "C163", "title": "The box of a regular grid holds it tightly", "statement": "xyz_box of a RegularGrid in local coordinates is the least box which holds all its nodes.", "quantifier": "all extents, origins and steps of either sign, aligned or not", "why_tests_cant": "any steps, any signs", "anchors": ["resqpy/grid/_regular_grid.py: RegularGrid.xyz_box"]}
{"id": "C164", "title": "The cell found for a point of a regular grid is the one it lies in", "statement": "find_cell_for_point_xy of an aligned RegularGrid gives the column in which the point lies, and none just if it lies in none.", "quantifier": "all aligned grids, with steps of either sign, all points", "why_tests_cant": "any points, any steps", "anchors": ["resqpy/grid/_regular_grid.py: RegularGrid.find_cell_for_point_xy"]}
{"id": "C165", "title": "Regular grids come back from store as they were", "statement": "An aligned RegularGrid is stored by create_xml and loaded with the same extent and steps; grids which are not aligned are refused as lattices; what is loaded is as the lattice says.", "quantifier": "all grids, all lattices", "why_tests_cant": "any steps of any sign; any lattice in a file", "anchors": ["resqpy/grid/_regular_grid.py: RegularGrid.create_xml, _add_geom_points_xml, _load_regular_grid_from_xml, axial_lengths_kji"]}
{"id": "C166", "title": "A regular grid with an origin is where it was meant to be", "statement": "The nodes of a RegularGrid made with an origin and a crs are, in the coordinates of the parent of the crs, where points with the same numbers in the crs given are.", "quantifier": "all grids, origins and crs", "why_tests_cant": "any crs, origin and node; before and after storing", "anchors": ["resqpy/grid/_regular_grid.py: RegularGrid.__init__", "resqpy/crs.py: Crs.local_to_global"]}
{"id": "C167", "title": "A regular grid based on a mesh follows the mesh", "statement": "RegularGrid with a mesh has the nodes of the mesh in its first layer, and steps of mesh_dz_dk along z for K.", "quantifier": "all regular meshes, all thicknesses", "why_tests_cant": "any mesh", "anchors": ["resqpy/grid/_regular_grid.py: RegularGrid.__init__"]}
{"id": "C168", "title": "Volumes of cells of regular grids", "statement": "volume of a RegularGrid is that of the parallelepiped of its steps, times the conversion factor, and thickness the length of the K step.", "quantifier": "all steps", "why_tests_cant": "any steps", "anchors": ["resqpy/grid/_regular_grid.py: RegularGrid.volume, thickness, axial_lengths_kji"]}
{"id": "C169", "title": "The points of a mesh are those it was made with", "statement": "full_array_ref of a new Mesh gives the points passed in, or the nodes of the regular lattice, with the z values passed in if any, or the x and y of the supporting mesh with the z values passed in; meshes without nodes and z values of another shape are refused.", "quantifier": "all arguments: points, lattices of any extent and steps, z values, supporting meshes of any flavour", "why_tests_cant": "any extent, any lattice, any chain of supporting meshes", "anchors": ["resqpy/surface/_mesh.py: Mesh.__init__, full_array_ref"]}
{"id": "C170", "title": "Meshes stored are loaded as they were", "statement": "After write_hdf5 and create_xml a Mesh loaded by uuid has the extent, role, flavour, crs and points it had, whatever other meshes are stored before or after it; storing is refused just for regular meshes with a step of nought.", "quantifier": "all sequences of meshes made and stored, of any flavour and referring to one another", "why_tests_cant": "any history of meshes; chains of references of any length", "anchors": ["resqpy/surface/_mesh.py: Mesh.write_hdf5, create_xml, full_array_ref"]}
{"id": "C171", "title": "A mesh made from a property of columns has the column centres", "statement": "Mesh.from_regular_grid_column_property gives a reg&z mesh whose x and y are the centres of the columns of the grid and whose z are the values of the property.", "quantifier": "all aligned regular grids as loaded, all properties of columns", "why_tests_cant": "any extent and steps", "anchors": ["resqpy/surface/_mesh.py: Mesh.from_regular_grid_column_property"]}
{"id": "C172", "title": "Mesh files are read as written", "statement": "read_mesh gives rows, columns, x, y and values as the zmap or RMS text file has them: zmap column by column from the greatest y, RMS row by row from the least; null values become NaN; files which are not complete are refused.", "quantifier": "all files", "why_tests_cant": "any file content, comments, layout of lines and number of values", "anchors": ["resqpy/olio/zmap_reader.py: read_mesh, read_zmap_header, read_roxar_header"]}
{"id": "C173", "title": "A mesh from a file has the points of the file, before and after storing", "statement": "Mesh with mesh_file, in each flavour offered, has the points of the file (z apart for regular), the same before storing and after loading.", "quantifier": "all files, all four flavours", "why_tests_cant": "any file; before and after storing", "anchors": ["resqpy/surface/_mesh.py: Mesh.__init__"]}
{"id": "C174", "title": "Frames of markers stored are loaded as they were", "statement": "After write_hdf5 and create_xml a WellboreMarkerFrame loaded by uuid has its metadata, trajectory and depths and its markers in order, each with its uuid, kind, interpretation, metadata and title, or a title made up from well, kind and interpretation; frames with a marker without a kind or with an unknown interpretation are refused; a marker is found by its interpretation, and its depth is that of its place.", "quantifier": "all models, frames and markers in them", "why_tests_cant": "any number of markers, any parts stored before and after", "anchors": ["resqpy/well/_wellbore_marker_frame.py: WellboreMarkerFrame.create_xml, write_hdf5, _load_from_xml, find_marker_from_interp, find_marker_from_index", "resqpy/well/_wellbore_marker.py: WellboreMarker.create_xml, _load_from_xml"]}
{"id": "C175", "title": "A frame of markers made from a table has one marker for each row", "statement": "WellboreMarkerFrame.from_dataframe gives one marker for each row, in order, with depth, kind, title and the interpretation titled in the row, which is created only if there is none, once for each title; nothing in the model is changed, and nothing is added if that is not asked for.", "quantifier": "all tables, models, names of columns", "why_tests_cant": "any number of rows, any order, any titles and content of the model", "anchors": ["resqpy/well/_wellbore_marker_frame.py: WellboreMarkerFrame.from_dataframe, __parse_dataframe_row_for_interp_uuid"]}
{"id": "C176", "title": "Markers written to a table and read from it are the same markers", "statement": "from_dataframe of dataframe() has the same depths and markers with the same kinds, titles and interpretations.", "quantifier": "all models and frames of titled markers", "why_tests_cant": "any markers and any content of the model", "anchors": ["resqpy/well/_wellbore_marker_frame.py: WellboreMarkerFrame.dataframe, from_dataframe"]}
{"id": "C177", "title": "Wellbore frames and measured depth datums are loaded as they were stored", "statement": "WellboreFrame and MdDatum objects loaded by uuid after create_xml have what they were made with; those made without what is needed are refused; two datums are equivalent if the same in all but rounding.", "quantifier": "all models, frames of two depths or more, datums", "why_tests_cant": "any depths, locations, references and parts stored before and after", "anchors": ["resqpy/well/_wellbore_frame.py: WellboreFrame.__init__, create_xml, write_hdf5, _load_from_xml", "resqpy/well/_md_datum.py: MdDatum.__init__, create_xml, _load_from_xml, is_equivalent"]}
{"id": "C178", "title": "A stencil covers each node within its reach once, weighted by distance, and normalizes as documented", "statement": "A TriMeshStencil covers, around any node, exactly the nodes which can be reached by fewer sides of triangles than the pattern has values, each once, with the value of the pattern for the number of sides; normalized to a value, the sum of all weights is that value, with weights (normalize_mode_flat) or sums of weights by ring in proportion to the pattern; unusable patterns are refused; the ready made patterns are constant or fall evenly.", "quantifier": "all patterns, values to normalize to, centres", "why_tests_cant": "any length of pattern and any weights; the rows of the stencil are packed and shifted by parity", "anchors": ["resqpy/surface/_tri_mesh_stencil.py: TriMeshStencil.__init__, for_constant_normalized, for_constant_unnormalized, for_linear_normalized, for_linear_unnormalized"]}
{"id": "C179", "title": "Applying a stencil is a convolution over the triangular lattice", "statement": "TriMeshStencil.apply with handle_nan False gives a mesh of the same size, spacing, origin, role, crs and units, in which each z is the weighted sum of the z of nodes covered, border_value standing for those beyond the mesh, NaN if any of them is NaN or if preserve_nan and it was NaN.", "quantifier": "all meshes, patterns of two values or more, border values", "why_tests_cant": "any size of mesh, including smaller than the stencil; any place of NaN", "anchors": ["resqpy/surface/_tri_mesh_stencil.py: TriMeshStencil.apply, _apply_stencil_simple"]}
{"id": "C180", "title": "Applying a stencil with NaN handling is a weighted mean of what there is", "statement": "TriMeshStencil.apply with handle_nan True gives at each node the weighted mean of the z covered which are not NaN, NaN only if their weights sum to nought or if preserve_nan and it was NaN: it lies between the least and greatest of them for weights not negative, gaps are filled as far as the stencil reaches, and planes are not changed where the stencil is in the mesh.", "quantifier": "all meshes, patterns of two values or more, border values", "why_tests_cant": "any size of mesh, place of NaN and gradient", "anchors": ["resqpy/surface/_tri_mesh_stencil.py: TriMeshStencil.apply, _apply_stencil_nanmean"]}
{"id": "C181", "title": "Every well and every table in a WELLSPEC file is found", "statement": "load_wellspecs (get_well_pointers) finds the wells named after WELLSPEC, each once in order of first appearance, with the places of all of its tables in order; a file is refused exactly if a WELLSPEC line has no name or a TIME line has no usable date.", "quantifier": "all files, wells, keywords in any case", "why_tests_cant": "any number and order of wells, dates and comments", "anchors": ["resqpy/olio/wellspec_keywords.py: get_well_pointers"]}
{"id": "C182", "title": "Tables are dated by the last TIME before them", "statement": "The date given to each table of a well in a WELLSPEC file is that of the last TIME line before it, or the start date (None) if there is none. The list of dates has each of them once.", "quantifier": "all files with any order of wells and dates", "why_tests_cant": "any interleaving of wells and dates; the date is carried over from well to well by the code", "anchors": ["resqpy/olio/wellspec_keywords.py: get_well_pointers, load_wellspecs"]}
{"id": "C183", "title": "Tables of WELLSPEC files are read in full, each value under its column", "statement": "Reading a table of a WELLSPEC file passes over blank lines and comments, ends at the next WELLSPEC, WELLMOD, TIME, INCLUDE or the end of file, and gives one row for each line of values, each value being that under the name of its column, NA being null; columns asked for and absent are null, or ROOT for GRID; short rows and unreadable values are refused.", "quantifier": "all files, columns asked for, layouts of comments and blank lines", "why_tests_cant": "any number of rows and columns, any order of comments and blank lines", "anchors": ["resqpy/olio/wellspec_keywords.py: get_well_data", "resqpy/olio/keyword_files.py: skip_comments, skip_blank_lines_and_comments, specific_keyword_next, strip_trailing_comment"]}
{"id": "C184", "title": "Tables of WELLSPEC files are returned with last duplicates, whole indices and the last data of each well", "statement": "load_wellspecs returns, for each well whose last table has any value, that table, with all columns or those with a value, all rows or the last for each cell, status as one or nought, indices as whole numbers and all other values as read; a well not in the file is refused. A column asked for which is not a known one is refused. If tables of all dates are asked for, those with any value are returned with their dates and all columns.", "quantifier": "all tables, options and files", "why_tests_cant": "any number of rows, duplicates and wells", "anchors": ["resqpy/olio/wellspec_keywords.py: get_well_data, get_all_well_data, load_wellspecs"]}
{"id": "C185", "title": "Multiprocessing gives the same result whatever the schedule", "statement": "function_multiprocessing returns the success of each call in the order of the arguments, and copies the objects of all workers into the recombined model, worker by worker in that order and by kind within a worker, in whatever order the workers finish and however often files are late or blocked, as long as it is less than the number of attempts; if success is required and a call fails, it raises and leaves the recombined model alone.", "quantifier": "all functions, argument lists, orders of completion, delays and failures", "why_tests_cant": "any number of workers and any interleaving", "anchors": ["resqpy/multi_processing/_multiprocessing.py: function_multiprocessing", "resqpy/olio/consolidation.py: sort_uuids_list, _ordering"]}
{"id": "C186", "title": "Multiprocessing loses nothing wherever it stops", "statement": "If function_multiprocessing stops at any point, the recombined epc file is as before or complete, and what the workers made is on the disk, in the temporary directory or in the recombined epc file; the temporary directory is removed if clean_up.", "quantifier": "all points at which it may stop", "why_tests_cant": "a crash may come between any two actions", "anchors": ["resqpy/multi_processing/_multiprocessing.py: function_multiprocessing"]}
{"id": "C187", "title": "The flags for defined geometry agree with the points", "statement": "After set_geometry_is_defined, cell_geometry_is_defined says of each cell whether all eight points of the cell (on primary pillars) are numbers, and pillar_geometry_is_defined says of each pillar whether any of its points is; points which are NaN, or hold the value given as treat_as_nan, on some axis become NaN on all axes, other points are kept; cells which were inactive or lack a point are inactive afterwards, and no others. With treat_dots_as_nan the points of cells without area are NaN afterwards.", "quantifier": "all grids, points, options and cached or stored flags from before", "why_tests_cant": "any pattern of missing points in a grid of any size", "anchors": ["resqpy/grid/_defined_geometry.py: set_geometry_is_defined, cell_geometry_is_defined, pillar_geometry_is_defined, __handle_areal_dots"]}
{"id": "C188", "title": "Pillars defined only in part are completed by interpolation", "statement": "With complete_partial_pillars, set_geometry_is_defined keeps the points a pillar has, repeats the first of them upwards and the last downwards, puts the missing points between two neighbouring ones on the straight line between them with equal steps, and leaves pillars without any point missing; it fails only if the grid has no point at all.", "quantifier": "all grids, pillars and patterns of missing points", "why_tests_cant": "any number of gaps of any length in a pillar", "anchors": ["resqpy/grid/_defined_geometry.py: set_geometry_is_defined, __infill_partial_pillar"]}
{"id": "C189", "title": "Completing all pillars leaves no gap and moves no point", "statement": "With complete_all, set_geometry_is_defined gives numbers to every point, says of all pillars and cells that they are defined, moves no point which was there (unless pillars defined only in part are to be nullified) and makes exactly those cells inactive which lacked a point; missing rows and columns of pillars at the edge are placed at the mean distance from their neighbours.", "quantifier": "all grids and patterns of missing pillars", "why_tests_cant": "any shape of holes and surround", "anchors": ["resqpy/grid/_defined_geometry.py: set_geometry_is_defined, __complete_all_pillars, __create_surround_masks, __fill_holes, __fill_surround"]}
{"id": "C190", "title": "Questions about stored geometry flags are answered from the store in any order", "statement": "On a grid as loaded, every sequence of calls of cell_geometry_is_defined and geometry_defined_for_all_cells, or of pillar_geometry_is_defined and geometry_defined_for_all_pillars, each with or without caching, is answered according to the stored array.", "quantifier": "all stored arrays and all sequences of calls", "why_tests_cant": "the answers depend on what earlier calls have cached", "anchors": ["resqpy/grid/_defined_geometry.py: cell_geometry_is_defined, pillar_geometry_is_defined, geometry_defined_for_all_cells, geometry_defined_for_all_pillars", "resqpy/model/_hdf5.py: _h5_array_element"]}
{"id": "C191", "title": "Which tables of relative permeability are accepted", "statement": "RelPerm made from a data frame is accepted exactly if, after capitalizing the names of columns, the first column is the saturation of one of two phases, the others are the permeabilities of both and possibly capillary pressure at the end, the phases named (if any are named) are these two, saturations and permeabilities are all there and between 0 and 1, saturation and the permeability of its phase rise together while the other falls (or the other way around), capillary pressure rises or falls, and the table index, if given, is at least 1; an accepted object holds the values unchanged, with the phases named or the usual name for them.", "quantifier": "all data frames with distinct column names, phase combinations, flags and table indices", "why_tests_cant": "any sequence of values in any number of rows, and any order of columns", "anchors": ["resqpy/olio/relperm.py: RelPerm.__init__, RelPerm.__error_check, RelPerm.__no_phase_combo_error_check"]}
{"id": "C192", "title": "Values between those of a table are found by linear interpolation", "statement": "interpolate_point on an accepted table with distinct saturations gives the value of a row at its saturation, between neighbouring saturations a value on the straight line between theirs, and an error exactly outside the range; the permeabilities it gives lie between 0 and 1 and rise or fall with saturation as those of the table do; column names in any case are accepted, and rows without capillary pressure are left out.", "quantifier": "all accepted tables, saturations and columns", "why_tests_cant": "any number and spacing of rows, rising or falling", "anchors": ["resqpy/olio/relperm.py: RelPerm.interpolate_point"]}
{"id": "C193", "title": "Tables written as text are read back", "statement": "Tables written one after the other by df_to_text to a file are read by text_to_relperm_dict in the same order, each with its phases and all of its values, missing ones as well; writing a table to an existing file leaves what is there; a table read from a model is written as the original one would be.", "quantifier": "all lists of accepted tables and all values which text keeps", "why_tests_cant": "any number of tables, rows and missing values in one file", "anchors": ["resqpy/olio/relperm.py: RelPerm.df_to_text, text_to_relperm_dict, RelPerm.__init__, write_hdf5_and_create_xml"]}
{"id": "C194", "title": "Data frames written to a model are loaded unchanged", "statement": "After any sequence of data frames and time tables was made and written to a model, each can be loaded by its uuid with the same column names, values, units and title, with the realization it was written for or without one, and not with another realization; frames which could be loaded before can be loaded afterwards with the same result.", "quantifier": "all models and all lists of non-empty frames with or without units, realizations and time series", "why_tests_cant": "any number of frames which share tables of names and units, in any order", "anchors": ["resqpy/olio/dataframe.py: DataFrame.__init__, DataFrame.write_hdf5_and_create_xml, DataFrame._set_mesh_from_df", "resqpy/property/string_lookup.py: StringLookup.create_xml"]}
{"id": "C195", "title": "New realizations, units of columns and uuids of lookup tables of data frames", "statement": "A frame given together with the uuid of an existing one and a new realization number is accepted if it has the same rows and columns, is written, and can then be loaded by uuid and realization; column_uom gives the unit of a column; the uuid of the table of names which a written frame gives can be used for another frame with the same names.", "quantifier": "all models, frames, realizations and units", "why_tests_cant": "any number of rows and columns and any frames written before", "anchors": ["resqpy/olio/dataframe.py: DataFrame.__init__, DataFrame.column_uom, DataFrame.write_hdf5_and_create_xml, DataFrame._set_mesh_from_df"]}
{"id": "C196", "title": "Time tables and lists of data frames", "statement": "After any sequence of frames and time tables was written to a model without any, each time table is loaded with its time series and a plain frame is refused as one; frames are listed in the order of writing, all or those with a title, time tables, others, or both; a frame whose title no other has is found by it, and nothing is found for a title which was not used.", "quantifier": "all lists of non-empty frames and time tables", "why_tests_cant": "any number of frames, titles and time series", "anchors": ["resqpy/olio/dataframe.py: TimeTable.__init__, TimeTable.write_hdf5_and_create_xml, dataframe_parts_in_model, dataframe_for_title"]}
{"id": "C197", "title": "Tables of fault multipliers are read from files", "statement": "load_nexus_fault_mult_table gives the rows of all MULT tables in a file in order, each with its cell ranges and multiplier, the direction of the faces which the keyword of its table gives (with - for MINUS), and the last grid and fault name set in its table before it, or ROOT and NONE; blank lines, lines beginning with ! or C, what follows a !, and lines outside of tables make no difference.", "quantifier": "all files made of any number of tables with rows of seven numbers, comments and other lines", "why_tests_cant": "any number and order of tables, settings, rows, comments and other lines", "anchors": ["resqpy/olio/read_nexus_fault.py: load_nexus_fault_mult_table, load_nexus_fault_mult_table_from_list"]}
{"id": "C198", "title": "Faults written for a simulator are read as the same faces", "statement": "The file which GridConnectionSet.write_simulator writes is read by load_nexus_fault_mult_table as a table of exactly the cell faces of the connections of each fault, on each side which is written, with the name of the fault and the multiplier as it was formatted.", "quantifier": "all connection sets, sides, fault names and multipliers", "why_tests_cant": "any number of faults and faces, merged into ranges of layers", "anchors": ["resqpy/fault/_grid_connection_set.py: GridConnectionSet.write_simulator", "resqpy/olio/read_nexus_fault.py: load_nexus_fault_mult_table_from_list"]}
{"id": "C199", "title": "Faults found in a grid are the connected groups of split faces", "statement": "Grid.find_faults numbers the faces between columns: a face has number zero just when both columns share its pillars, and two split faces have the same number just when they are joined by faces next to each other in a line of faces or meeting at a pillar where no other face of the same direction is split. Each split face is in the list of faces of just one fault of fault_dict.", "quantifier": "all grids with any number of columns and any assignment of pillars to columns", "why_tests_cant": "any extent, any set of split pillars and order of merging of numbers", "anchors": ["resqpy/grid/_faults.py: find_faults"]}
{"id": "C200", "title": "Throws of faults are differences in depth across faces", "statement": "Grid.fault_throws gives for each J and I face on a fault the mean over its corners of the difference in depth between the two columns. fault_throws_per_edge_per_column gives opposite throws on the two sides of a fault, zero where there is no fault and at the sides of the grid, the common offset where there is one, the same values in both orders of edges, and the least or greatest absolute separation in modes minimum and maximum.", "quantifier": "all grids, depths, pillars and modes", "why_tests_cant": "any extent, depths and assignment of pillars", "anchors": ["resqpy/grid/_faults.py: fault_throws, fault_throws_per_edge_per_column"]}
{"id": "C201", "title": "Attributes of a property set are its properties", "statement": "An AttributePropertySet has for each key the first property with that key as attribute, and leaves its other attributes alone; with distinct keys items() gives each property once, in order, with its key, as many as len(); with multiple_handling exception a KeyError is raised just when two properties have the same key.", "quantifier": "all collections of properties, key modes and ways of handling duplicates", "why_tests_cant": "any number and order of properties, any metadata", "anchors": ["resqpy/property/attribute_property_set.py: AttributePropertySet._make_attributes, keys, properties, items, __len__"]}
{"id": "C202", "title": "Keys of properties tell times and realizations apart", "statement": "The key of a property has no blanks; keys of properties of the same kind, title, facet and indexable element are the same just when time index and realization are the same; keys of properties which differ in kind, title, facet or indexable element differ.", "quantifier": "all metadata of properties, both key modes", "why_tests_cant": "any text, numbers and combination of metadata", "anchors": ["resqpy/property/attribute_property_set.py: make_aps_key"]}
{"id": "C203", "title": "Grid objects of a model are shared", "statement": "Model.grid returns for a uuid or title an object for the grid with that uuid or title, and refuses the call if there is no such grid; the same object is returned each time a grid is asked for. Without uuid and title it is the oldest grid titled ROOT, or the only grid; once returned, the same object is returned ever after. The list of grids of a model has just one object for each grid.", "quantifier": "all models and histories of calls of grid and add_grid and of new grids", "why_tests_cant": "any history, including grids added between calls, and any number of grids and titles", "anchors": ["resqpy/model/_grids.py: _grid, _add_grid, _resolve_grid_root, _root_for_ijk_grid", "resqpy/model/_model.py: Model.grid, Model.add_grid"]}
{"id": "C204", "title": "Bespoke property kinds are stored once and found again", "statement": "Creating the xml of a PropertyKind leaves the property kinds of the model as they are and stores the object, or gives it the uuid of one in the model with the same data; a second object with the same data takes the same uuid, whatever is created between. Read again it has the same data. establish_zone_property_kind gives the property kind titled zone of the model, and adds one only if there is none.", "quantifier": "all property kinds and histories of creating them", "why_tests_cant": "any history and any combination of titles, units and other data", "anchors": ["resqpy/property/property_kind.py: PropertyKind.is_equivalent, PropertyKind.create_xml, establish_zone_property_kind", "resqpy/olio/base.py: BaseResqpy.try_reuse"]}
{"id": "C205", "title": "A gathered ensemble has every property of every case under the number of its case", "statement": "gather_ensemble gives a model with the properties of all cases, each with its data and with the index of its case in the list as realization number, and a lookup table from numbers to paths. With shared grids the model has the grids and time series of the first case only; each property is on a grid with the extent of the one it was on, titles deciding where extents of grids of the first case are not distinct, and its time series has the title of the one it had; an exception is raised where grids do not match. Without shared grids each case keeps its grids. shared_time_series is ignored if consolidate is False.", "quantifier": "all lists of cases, with any grids, time series and properties, and the ways of sharing", "why_tests_cant": "any number of cases and any combination of uuids, extents and titles", "anchors": ["resqpy/derived_model/_gather_ensemble.py: gather_ensemble", "resqpy/model/_forestry.py: _copy_part_from_other_model, _copy_referenced_parts, _copy_all_parts_from_other_model, _set_realization_index_node_if_required", "resqpy/olio/consolidation.py: Consolidation.force_uuid_equivalence, Consolidation.check_map_integrity"]}
{"id": "C206", "title": "A geologic time series holds its years oldest first, and keeps them through xml", "statement": "A geologic time series made from a list of years has the negative of the size of each, oldest first; written to xml it is known as geologic and read back as it was. Xml of any writer is read exactly if every time has a date and a year offset and the metadata do not say it is a series of dates, and the offsets come out oldest first. timestamp takes indices from either end; index_for_timestamp gives the first time which is as asked; two series are equivalent exactly if one part, or the same in timeframe and times; selected series hold the times asked for, oldest first; string forms are positive numbers of millions of years by which a time can be found; series can be merged.", "quantifier": "all lists of years, xml time series, indices and strings", "why_tests_cant": "lists of any length in any order", "anchors": ["resqpy/time_series/_geologic_time_series.py: GeologicTimeSeries.from_year_list, GeologicTimeSeries.is_equivalent", "resqpy/time_series/_any_time_series.py: AnyTimeSeries._load_from_xml, AnyTimeSeries.create_xml, AnyTimeSeries.timestamp, AnyTimeSeries.index_for_timestamp", "resqpy/time_series/_functions.py: selected_time_series, geologic_time_str, timeframe_for_time_series_uuid, any_time_series, merge_timeseries_from_uuid"]}
{"id": "C207", "title": "A grid is read back in its class", "statement": "any_grid gives for the uuid of a grid an object of the class it was written from: Grid, RegularGrid, UnstructuredGrid, TetraGrid, HexaGrid, PyramidGrid, PrismGrid or VerticalPrismGrid, whatever the options of writing; for grids of other writers the class is given by the type of points of an ijk grid and the shape of cells of an unstructured grid.", "quantifier": "all classes of grid, options of writing them, and xml of other writers", "why_tests_cant": "every combination of class, options, metadata and geometry in xml", "anchors": ["resqpy/grid/_grid_types.py: grid_flavour, is_regular_grid, any_grid", "resqpy/grid/_regular_grid.py: RegularGrid.create_xml", "resqpy/grid/_create_grid_xml.py: _create_grid_xml", "resqpy/unstructured/_unstructured_grid.py: UnstructuredGrid.create_xml"]}
