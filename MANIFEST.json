{
 "claims": [
  {
   "property": "C01",
   "status": "proved",
   "theorems": [
    "Verif.Box.C01_box_text_round_trip",
    "Verif.Box.C01_parsed_box_sound"
   ],
   "note": "Text written for any box is read back as the same box; any accepted text yields integers in the written order."
  },
  {
   "property": "C02",
   "status": "proved",
   "theorems": [
    "Verif.Box.C02_cell_in_box_iff",
    "Verif.Box.C02_local_exists_iff",
    "Verif.Box.C02_parent_local_round_trip",
    "Verif.Box.C02_local_parent_round_trip",
    "Verif.Box.C02_volume_counts_cells",
    "Verif.Box.C02_central_cell_in_box",
    "Verif.Box.C02_valid_box_iff",
    "Verif.Box.C02_single_and_full"
   ],
   "note": "Membership, local/parent conversion round trip in both directions, cell count, centre and validity, for all integer boxes."
  },
  {
   "property": "C03",
   "status": "proved",
   "theorems": [
    "Verif.Box.C03_overlap_iff_common_cell",
    "Verif.Box.C03_union_least",
    "Verif.Box.C03_union_none"
   ],
   "note": "Overlap holds exactly when a common cell exists; union is the least enclosing box."
  },
  {
   "property": "C04",
   "status": "partial",
   "theorems": [
    "Verif.Box.C04_trim_offered_iff_overlap",
    "Verif.Box.C04_trim_covers_shared",
    "Verif.Box.C04_remainder_is_box_violated",
    "Verif.Box.C04_remainder_nonempty_violated",
    "Verif.Box.C04_trim_remainder_partial",
    "Verif.Box.C04_trim_by_box_sound"
   ],
   "note": "The documented claim that what remains is a box is false in general (two counterexample theorems); the _partial theorem states exactly what holds: a trim is offered iff boxes overlap and covers the shared cells, and the remainder is a box when the shared box spans all but one axis."
  },
  {
   "property": "C05",
   "status": "proved",
   "theorems": [
    "Verif.Box.C05_trim_to_mask_minimal",
    "Verif.Box.C05_empty_mask_refused"
   ],
   "note": "Trimming to mask returns the least box holding all set cells; empty mask is refused."
  },
  {
   "property": "C06",
   "status": "proved",
   "theorems": [
    "Verif.FineCoarse.C06_each_fine_cell_in_one_box",
    "Verif.FineCoarse.C06_lookup_iff_in_box",
    "Verif.FineCoarse.C06_boxes_within_fine_grid",
    "Verif.FineCoarse.C06_natural_column_index",
    "Verif.FineCoarse.C06_natural_pillar_index",
    "Verif.FineCoarse.C06_ratios_consistent_after_any_history"
   ],
   "note": "Tiling, lookup/box agreement, natural column and pillar indices, and validity of the ratios after any call history."
  },
  {
   "property": "C07",
   "status": "partial",
   "theorems": [
    "Verif.FineCoarse.C07_stale_mapping_violated",
    "Verif.FineCoarse.C07_early_lookup_violated",
    "Verif.FineCoarse.C07_follows_ratios_set_before_first_lookup_partial"
   ],
   "note": "Violated: the cached mapping is never rebuilt (two witnesses). Partial theorem: holds for all histories in which ratio setting precedes the first lookup."
  },
  {
   "property": "C08",
   "status": "proved",
   "theorems": [
    "Verif.Factors.C08_prime_factors",
    "Verif.Factors.C08_combinatorial_products",
    "Verif.Factors.C08_all_factors",
    "Verif.Factors.C08_remove_subset"
   ],
   "note": "factorize, combinatorial products, all_factors and the removal of a subset from a list, for all inputs."
  },
  {
   "property": "C09",
   "status": "proved",
   "theorems": [
    "Verif.Xml.C09_part_name_gives_uuid",
    "Verif.Xml.C09_part_names_distinct",
    "Verif.Xml.C09_rels_name_gives_uuid",
    "Verif.Xml.C09_rels_name_identifies_part"
   ],
   "note": "Uuid recovered from every generated part name and its relationships part name; distinctness; relationships names identify parts up to one leading slash (names /b and b share the relationships name, as in the code)."
  },
  {
   "property": "C10",
   "status": "partial",
   "theorems": [
    "Verif.Xml.C10_text_round_trip_partial",
    "Verif.Xml.C10_blank_text_violated",
    "Verif.Xml.C10_carriage_return_violated",
    "Verif.Xml.C10_blank_title",
    "Verif.Xml.C10_attribute_violated"
   ],
   "note": "Violated for blank text, carriage returns and attribute values (written unescaped). Round trip proved for all non blank text of xml characters without carriage return."
  },
  {
   "property": "C11",
   "status": "proved",
   "theorems": [
    "Verif.Xml.C11_ordered_lookup",
    "Verif.Xml.C11_found_is_found"
   ],
   "note": "For all sorted lists: termination, first position, absence; for any list a returned position holds the value."
  },
  {
   "property": "C12",
   "status": "partial",
   "theorems": [
    "Verif.Catalogue.C12_found_is_filed",
    "Verif.Catalogue.C12_listings_agree",
    "Verif.Catalogue.C12_remove_leaves_others",
    "Verif.Catalogue.C12_removed_not_found",
    "Verif.Catalogue.C12_added_is_found",
    "Verif.Catalogue.C12_unrelated_removal_violated",
    "Verif.Catalogue.C12_catalogue_consistent_partial"
   ],
   "note": "Unconditional for all histories, also with exceptions: found by uuid implies filed; listings agree; removal leaves everything else; removed is not found; added is found. Filed implies found by uuid is violated when an unrelated part is removed (KeyError half way); proved for histories without exceptions and fresh uuids, together with completeness of the main tree."
  },
  {
   "property": "C13",
   "status": "partial",
   "theorems": [
    "Verif.Catalogue.C13_mutual_partial",
    "Verif.Catalogue.C13_removed_not_named_partial",
    "Verif.Catalogue.C13_removal_succeeds_partial",
    "Verif.Catalogue.C13_one_strength_partial",
    "Verif.Catalogue.C13_one_sided_violated",
    "Verif.Catalogue.C13_two_strengths_violated",
    "Verif.Catalogue.C13_support_change_violated"
   ],
   "note": "Violated by one-sided soft relationships, by soft then hard relationships and by change of supporting representation to an unrelated part. Under the stated discipline: mutual, one strength, removed parts not named, removal succeeds."
  },
  {
   "property": "C14",
   "status": "partial",
   "theorems": [
    "Verif.Query.C14_query_selects_partial",
    "Verif.Query.C14_criteria_narrow_partial",
    "Verif.Query.C14_empty_start_violated",
    "Verif.Query.C14_subdir_violated",
    "Verif.Query.C14_sorting_permutes",
    "Verif.Query.C14_single_part",
    "Verif.Query.C14_several_parts"
   ],
   "note": "Proved for queries without sub-directory restriction, whose starting list is not an empty list; sorting and single-part handling proved. Violations: an empty starting list queries everything; sub-directory filtering always raises TypeError on a non-empty list."
  },
  {
   "property": "C15",
   "status": "partial",
   "theorems": [
    "Verif.Consolidation.C15_resolves_in_one_step_partial",
    "Verif.Consolidation.C15_equivalences_are_sound_partial",
    "Verif.Consolidation.C15_answer_is_resident_partial",
    "Verif.Consolidation.C15_ignoring_identical_violated",
    "Verif.Consolidation.C15_forced_chain_violated"
   ],
   "note": "Proved for histories that do not ask to ignore identical parts and that force equivalences only onto residents that are not themselves mapped; both exceptions are shown to break the property in the code as it stands (violated theorems)."
  },
  {
   "property": "C16",
   "status": "partial",
   "theorems": [
    "Verif.Hdf5.C16_default_roundtrip_iff_partial",
    "Verif.Hdf5.C16_default_storage_violated",
    "Verif.Hdf5.C16_full_storage"
   ],
   "note": "With the default storage width the array comes back unchanged exactly when every value fits in 32 bits (iff); a value outside the range is shown to come back changed. With the full width requested every 64 bit array survives. Conversions of the array library are a parameter assumed faithful on values in range."
  },
  {
   "property": "C17",
   "status": "partial",
   "theorems": [
    "Verif.Hdf5.C17_packed_roundtrip",
    "Verif.Hdf5.C17_unpacked_taken_for_packed_violated",
    "Verif.Hdf5.C17_not_packed_reshaped",
    "Verif.Hdf5.C17_single_element_rows_violated"
   ],
   "note": "Round trip of packed arrays for every shape; the recognition rule is shown to take some unpacked arrays for packed ones (violated)."
  },
  {
   "property": "C18",
   "status": "proved",
   "theorems": [
    "Verif.Hdf5.C18_reshaped_element",
    "Verif.Hdf5.C18_mismatched_tail_refused"
   ],
   "note": "All shapes, by induction over the dimensions."
  },
  {
   "property": "C19",
   "status": "partial",
   "theorems": [
    "Verif.Lookup.C19_from_dict_partial",
    "Verif.Lookup.C19_reloaded_lookup_partial",
    "Verif.Lookup.C19_duplicate_key_refused",
    "Verif.Lookup.C19_reverse_lookup_partial",
    "Verif.Lookup.C19_set_string_violated",
    "Verif.Lookup.C19_set_string_inconsistent_violated",
    "Verif.Lookup.C19_set_string_on_empty_violated",
    "Verif.Lookup.C19_list_after_reload_violated",
    "Verif.Lookup.C19_reverse_lookup_after_reload_violated",
    "Verif.Lookup.C19_list_by_key"
   ],
   "note": "Creation from a dictionary, reload, refusal of duplicate keys and reverse lookup are proved; set_string is shown to give wrong answers in the list form, and lists change after reload (violated)."
  },
  {
   "property": "C20",
   "status": "partial",
   "theorems": [
    "Verif.TimeSeries.C20_additions_keep_order",
    "Verif.TimeSeries.C20_addition",
    "Verif.TimeSeries.C20_extension_violated",
    "Verif.TimeSeries.C20_history_partial",
    "Verif.TimeSeries.C20_extension",
    "Verif.TimeSeries.C20_negative_refused",
    "Verif.TimeSeries.C20_not_later",
    "Verif.TimeSeries.C20_not_earlier",
    "Verif.TimeSeries.C20_not_later_in_time_partial",
    "Verif.TimeSeries.C20_searches_in_time",
    "Verif.TimeSeries.C20_searches_mixed_forms_violated",
    "Verif.TimeSeries.C20_closest_partial",
    "Verif.TimeSeries.C20_closest_violated",
    "Verif.TimeSeries.C20_durations_add",
    "Verif.TimeSeries.C20_step_duration"
   ],
   "note": "String order is preserved by every history of additions; chronological order for timestamps in the usual forms and extensions by whole seconds. Extension by a fraction of a second, the closest search between the first two timestamps, and searches with mixed forms are shown to break the full statement (violated)."
  },
  {
   "property": "C21",
   "status": "proved",
   "theorems": [
    "Verif.Crs.C21_inverse",
    "Verif.Crs.C21_arrays",
    "Verif.Crs.C21_convert_roundtrip",
    "Verif.Crs.C21_convert_transitive",
    "Verif.Crs.C21_convert_from"
   ],
   "note": "Local/global inverse both ways for every crs; arrays pointwise; conversion between systems round trips and composes, over exact reals and any sound unit table."
  },
  {
   "property": "C22",
   "status": "partial",
   "theorems": [
    "Verif.Crs.C22_switch_partial",
    "Verif.Crs.C22_switch_violated",
    "Verif.Crs.C22_roundtrip",
    "Verif.Crs.C22_by_way_of_easting_northing"
   ],
   "note": "Switching is right for exactly the listed pairs of axis orders; other pairs put some point in the wrong place (negation proved). Round trip and composition via easting northing hold for all."
  },
  {
   "property": "C23",
   "status": "proved",
   "theorems": [
    "Verif.Crs.C23_handedness",
    "Verif.Crs.C23_tables_agree"
   ],
   "note": "Handedness agrees with the sign of the triple product of the axes in the world, and the two tables agree."
  },
  {
   "property": "C24",
   "status": "partial",
   "theorems": [
    "Verif.Volume.C24_volume_and_twist_partial",
    "Verif.Volume.C24_volume_planar_faces_partial",
    "Verif.Volume.C24_volume_bilinear_faces_violated",
    "Verif.Volume.C24_centre_irrelevant",
    "Verif.Volume.C24_translation",
    "Verif.Volume.C24_parallelepiped",
    "Verif.Volume.C24_arrays_agree",
    "Verif.Volume.C24_arrays_agree_centres"
   ],
   "note": "The block grid volume is the enclosed volume plus a sixth of the total twist of the faces (sign error of the bilinear correction in _pyr as called by tetra_cell_volume), hence right for planar faces; the general claim is refuted by a unit cube with one corner raised (5/4 true, 17/12 returned). Centre, translation, parallelepiped and array agreement hold for all inputs."
  },
  {
   "property": "C25",
   "status": "proved",
   "theorems": [
    "Verif.GridFns.C25_resequence_undone",
    "Verif.GridFns.C25_values_only_moved",
    "Verif.GridFns.C25_eight_mode_reads_blocks",
    "Verif.GridFns.C25_ring_to_rows"
   ],
   "note": "All arrays and both modes; permutation within each cell. Loops that assign each element once are written as functions of the index."
  },
  {
   "property": "C26",
   "status": "partial",
   "theorems": [
    "Verif.Pillars.C26_distance_to_marked",
    "Verif.Pillars.C26_distance_to_split_partial",
    "Verif.Pillars.C26_edge_face_missed_violated"
   ],
   "note": "Distance to columns marked in the split face arrays for all grids, with termination; as the arrays miss faces at the far edge (C27) the claim about split faces holds only when split faces meet the far boundary at split pillars."
  },
  {
   "property": "C27",
   "status": "partial",
   "theorems": [
    "Verif.Pillars.C27_query_symmetric",
    "Verif.Pillars.C27_marked_iff",
    "Verif.Pillars.C27_marked_iff_split_partial",
    "Verif.Pillars.C27_edge_face_missed_violated"
   ],
   "note": "Exact characterisation of what is marked: J faces in the last column and I faces in the last row are missed when only their inner pillar is split."
  },
  {
   "property": "C28",
   "status": "partial",
   "theorems": [
    "Verif.Pinchout.C28_column_sound",
    "Verif.Pinchout.C28_column_exact",
    "Verif.Pinchout.C28_column_complete_partial",
    "Verif.Pinchout.C28_successive_pinchouts_violated",
    "Verif.Pinchout.C28_grid_pairs",
    "Verif.Pinchout.C28_index_identifies_cell"
   ],
   "note": "The scan of a column is characterised exactly; completeness is proved for columns without two pinchouts separated by a single layer, and a column with them is shown to miss connections."
  },
  {
   "property": "C29",
   "status": "proved",
   "theorems": [
    "Verif.Units.C29_table_is_sound",
    "Verif.Units.C29_recognised_units",
    "Verif.Units.C29_roundtrip",
    "Verif.Units.C29_transitive",
    "Verif.Units.C29_transitive_in_place",
    "Verif.Units.C29_refusal",
    "Verif.Units.C29_order",
    "Verif.Units.C29_in_place",
    "Verif.Units.C29_transmissibility_components",
    "Verif.Units.C29_transmissibility_roundtrip",
    "Verif.Units.C29_transmissibility_factor",
    "Verif.Units.C29_transmissibility_resqpy"
   ],
   "note": "Over any ordered field, for every unit table meeting stated requirements; the 1442 unit table shipped with resqpy is transcribed and shown to meet them. Case folding is modelled for ASCII letters."
  },
  {
   "property": "C30",
   "status": "proved",
   "theorems": [
    "Verif.TriMesh.C30_weights",
    "Verif.TriMesh.C30_inside",
    "Verif.TriMesh.C30_found",
    "Verif.TriMesh.C30_array_agrees",
    "Verif.TriMesh.C30_nodes_agree",
    "Verif.TriMesh.C30_numbering",
    "Verif.TriMesh.C30_interpolated_plane",
    "Verif.TriMesh.C30_interpolated_range"
   ],
   "note": "Weights, containment, uniqueness, exact extent of the mesh, array agreement, numbering; exact arithmetic over any ordered field with floor."
  },
  {
   "property": "C31",
   "status": "proved",
   "theorems": [
    "Verif.Pillars.C31_mapping_spec",
    "Verif.Pillars.C31_foursome_agrees"
   ],
   "note": "Every table of extra pillars for which the mapping is made; the cumulative lengths must end at the number of columns listed, which the code asserts."
  },
  {
   "property": "C32",
   "status": "partial",
   "theorems": [
    "Verif.Zones.C32_ranges",
    "Verif.Zones.C32_success_partial",
    "Verif.Zones.C32_inactive_layers_violated",
    "Verif.Zones.C32_dominant"
   ],
   "note": "Ranges are ordered, disjoint and dominated by their zone; layers without active cells raise errors (violated)."
  },
  {
   "property": "C33",
   "status": "partial",
   "theorems": [
    "Verif.Keywords.C33_find_keyword",
    "Verif.Keywords.C33_without_passing",
    "Verif.Keywords.C33_with_copy",
    "Verif.Keywords.C33_skip",
    "Verif.Keywords.C33_specific_next",
    "Verif.Keywords.C33_find_pair_partial",
    "Verif.Keywords.C33_find_pair_violated",
    "Verif.Keywords.C33_comment_partial",
    "Verif.Keywords.C33_comment_violated"
   ],
   "note": "Position left at first match, or unchanged; find_keyword_pair moves the file on failure (violated); comment of a single character lost (violated)."
  },
  {
   "property": "C34",
   "status": "partial",
   "theorems": [
    "Verif.Gcs.C34_set_for_flag",
    "Verif.Gcs.C34_set_current",
    "Verif.Gcs.C34_transmissibility_partial",
    "Verif.Gcs.C34_stale_transmissibility_violated"
   ],
   "note": "The set returned is the right one for the flag; transmissibilities are right when the flag does not change; after a change of flag they are stale."
  },
  {
   "property": "C35",
   "status": "partial",
   "theorems": [
    "Verif.Lines.C35_sublist_last",
    "Verif.Lines.C35_first_partial",
    "Verif.Lines.C35_neighbours_partial",
    "Verif.Lines.C35_cover",
    "Verif.Lines.C35_polygon_line",
    "Verif.Lines.C35_first_violated",
    "Verif.Lines.C35_neighbours_violated"
   ],
   "note": "First vertex is lost when all the vertices are within tolerance of the last, and the last pair may be within tolerance (violated); the rest is proved."
  },
  {
   "property": "C36",
   "status": "proved",
   "theorems": [
    "Verif.Polygon.C36_edges",
    "Verif.Polygon.C36_crossing_number",
    "Verif.Polygon.C36_any_start",
    "Verif.Polygon.C36_either_direction",
    "Verif.Polygon.C36_array_agrees",
    "Verif.Polygon.C36_winding_parity",
    "Verif.Polygon.C36_repeated_vertex",
    "Verif.Polygon.C36_cut",
    "Verif.Polygon.C36_fan",
    "Verif.Polygon.C36_triangle",
    "Verif.Polygon.C36_outside_box",
    "Verif.Polygon.C36_units"
   ],
   "note": "Crossing number is the number of edges crossed, invariant under rotation, reversal, repeated vertices, cutting; parity agrees with winding number; array version agrees."
  },
  {
   "property": "C37",
   "status": "partial",
   "theorems": [
    "Verif.FineCoarse.C37_equal_proportions",
    "Verif.FineCoarse.C37_set_proportions",
    "Verif.FineCoarse.C37_interpolation",
    "Verif.FineCoarse.C37_proportions_for_axis",
    "Verif.FineCoarse.C37_stale_proportions_violated"
   ],
   "note": "Partition law proved for the proportions just set and for equal proportions; violated when ratios are changed afterwards (stale proportions). Exact arithmetic."
  },
  {
   "property": "C38",
   "status": "proved",
   "theorems": [
    "Verif.FineCoarse.C38_tartan_linear",
    "Verif.FineCoarse.C38_tartan_exponential",
    "Verif.FineCoarse.C38_tartan_linear_default",
    "Verif.FineCoarse.C38_tartan_exponential_default",
    "Verif.FineCoarse.C38_tartan_accepted"
   ],
   "note": "Proved over any ordered field with floor; for the default exponential rates the rate enters as the positive root of the defining power equation."
  },
  {
   "property": "C39",
   "status": "proved",
   "theorems": [
    "Verif.Xml.C39_tag_match_iff"
   ],
   "note": "For tags whose local name holds no colon."
  },
  {
   "property": "C40",
   "status": "proved",
   "theorems": [
    "Verif.Xml.C40_uuid_text_round_trip",
    "Verif.Xml.C40_letter_case_ignored",
    "Verif.Xml.C40_uuid_text_injective",
    "Verif.Xml.C40_matching_uuids_iff",
    "Verif.Xml.C40_none_never_matches",
    "Verif.Xml.C40_uuid_in_list_iff"
   ],
   "note": "Text round trip with underscore and tail, injectivity, matching over all four accepted forms, membership."
  },
  {
   "property": "C41",
   "status": "proved",
   "theorems": [
    "Verif.TimeSeries.C41_from_list_succeeds",
    "Verif.TimeSeries.C41_from_list_times"
   ],
   "note": "All lists of plain timestamps."
  },
  {
   "property": "C42",
   "status": "proved",
   "theorems": [
    "Verif.Crs.C42_rotation_sense"
   ],
   "note": "Rotation is clockwise for every axis order."
  },
  {
   "property": "C43",
   "status": "partial",
   "theorems": [
    "Verif.Crs.C43_array_conversion_partial",
    "Verif.Crs.C43_rotation_units_violated"
   ],
   "note": "Array conversion equals pointwise conversion unless the systems are deemed equivalent; equivalence ignores rotation units, so the full claim fails: a witness with the shipped unit table is given."
  },
  {
   "property": "C44",
   "status": "partial",
   "theorems": [
    "Verif.Volume.C44_hexa_volume",
    "Verif.Volume.C44_block_and_hexa_grids_violated",
    "Verif.Volume.C44_tetrahedron_volume",
    "Verif.Volume.C44_pyramid_volume"
   ],
   "note": "Unstructured hexahedral volume equals the integral for every listing of the faces; agreement with the block grid volume fails for non planar faces (negation proved)."
  },
  {
   "property": "C45",
   "status": "proved",
   "theorems": [
    "Verif.GridFns.C45_columns_on_the_right",
    "Verif.GridFns.C45_ends_of_path",
    "Verif.GridFns.C45_reversed_path",
    "Verif.GridFns.C45_consistent_along_path"
   ],
   "note": "All paths of single steps; reversals of direction raise as the code intends."
  },
  {
   "property": "C46",
   "status": "partial",
   "theorems": [
    "Verif.GridFns.C46_infill_partial",
    "Verif.GridFns.C46_snap_overwrites_violated",
    "Verif.GridFns.C46_small_overlap_fails_violated"
   ],
   "note": "Holds for all columns with snapping off and no overlap; the default setting overwrites active cells, and small overlaps raise TypeError because an argument is missing in a call."
  },
  {
   "property": "C47",
   "status": "partial",
   "theorems": [
    "Verif.GridFns.C47_given_shift",
    "Verif.GridFns.C47_least_value",
    "Verif.GridFns.C47_shift_rounded_up_violated"
   ],
   "note": "Exact arithmetic. With a shift and preserved digits together the shift is rounded up rather than towards zero."
  },
  {
   "property": "C48",
   "status": "proved",
   "theorems": [
    "Verif.Gcs.C48_marked_faces",
    "Verif.Gcs.C48_each_face_once",
    "Verif.Gcs.C48_feature",
    "Verif.Gcs.C48_skin"
   ],
   "note": "Single grid; the three masks and the skin of a cell mask."
  },
  {
   "property": "C49",
   "status": "partial",
   "theorems": [
    "Verif.Gcs.C49_sorted_distinct",
    "Verif.Gcs.C49_listed_faces",
    "Verif.Gcs.C49_properties_aligned_partial",
    "Verif.Gcs.C49_properties_left_behind_violated"
   ],
   "note": "Faces proved; properties stay aligned only when duplicates are found or the set is already sorted; otherwise they are left in the old order."
  },
  {
   "property": "C50",
   "status": "partial",
   "theorems": [
    "Verif.Gcs.C50_filter_by_mask",
    "Verif.Gcs.C50_layer_range_partial",
    "Verif.Gcs.C50_layer_defaults_violated",
    "Verif.Gcs.C50_single_feature",
    "Verif.Gcs.C50_feature_by_name_partial",
    "Verif.Gcs.C50_name_prefix_violated"
   ],
   "note": "Mask and single feature filters proved; layer range needs both limits given (a default raises TypeError); name lookup returns the first title with the name as prefix, so needs prefix free titles."
  },
  {
   "property": "C51",
   "status": "proved",
   "theorems": [
    "Verif.Gcs.C51_append",
    "Verif.Gcs.C51_merge"
   ],
   "note": "Proved for the case in which features with equal uuid are equal."
  },
  {
   "property": "C52",
   "status": "partial",
   "theorems": [
    "Verif.Gcs.C52_inherit_partial",
    "Verif.Gcs.C52_common_feature_violated",
    "Verif.Gcs.C52_unused_feature_violated"
   ],
   "note": "Proved when no feature is in both sets and unused features come first (always so with one original feature); a common feature raises TypeError, and other patterns of unused features corrupt the indices."
  },
  {
   "property": "C53",
   "status": "partial",
   "theorems": [
    "Verif.Gcs.C53_series_partial",
    "Verif.Gcs.C53_per_connection",
    "Verif.Gcs.C53_bounds",
    "Verif.Gcs.C53_second_face_violated"
   ],
   "note": "Proved when the second cell has the same half transmissibility at both faces concerned; the code takes the face of the first cell for both sides, shown wrong in general."
  },
  {
   "property": "C54",
   "status": "partial",
   "theorems": [
    "Verif.Gcs.C54_faces",
    "Verif.Gcs.C54_multipliers_partial",
    "Verif.Gcs.C54_next_multiplier_violated",
    "Verif.Gcs.C54_merged_multiplier_violated"
   ],
   "note": "Faces proved; multipliers only when uniform within a feature: rows are written with the multiplier of the next row, and runs are merged regardless of multipliers."
  },
  {
   "property": "C55",
   "status": "proved",
   "theorems": [
    "Verif.Gcs.C55_combined",
    "Verif.Gcs.C55_succeeds"
   ],
   "note": "The merge of face arrays, the fill and the sign check."
  },
  {
   "property": "C56",
   "status": "partial",
   "theorems": [
    "Verif.Gcs.C56_columns",
    "Verif.Gcs.C56_no_exception",
    "Verif.Gcs.C56_discrete_default_null_violated"
   ],
   "note": "All ways of handling multiple values proved; for discrete properties the default null value raises ValueError."
  },
  {
   "property": "C57",
   "status": "partial",
   "theorems": [
    "Verif.Gcs.C57_table_partial",
    "Verif.Gcs.C57_existing_objects_violated",
    "Verif.Gcs.C57_existing_interpretation_violated",
    "Verif.Gcs.C57_lower_case_letter_violated"
   ],
   "note": "Proved for new faults with creation of objects; the default arguments, existing interpretations and single lower case letters all raise."
  },
  {
   "property": "C58",
   "status": "proved",
   "theorems": [
    "Verif.Gcs.C58_interfaces",
    "Verif.Gcs.C58_last",
    "Verif.Gcs.C58_connections",
    "Verif.Gcs.C58_thickness"
   ],
   "note": "Interface indices, thickness and the list of connections."
  },
  {
   "property": "C59",
   "status": "partial",
   "theorems": [
    "Verif.Gcs.C59_values_partial",
    "Verif.Gcs.C59_face_identity",
    "Verif.Gcs.C59_baffle_violated"
   ],
   "note": "Proved without baffles; the baffle mask is used as integer indices, which zeroes the wrong entries."
  },
  {
   "property": "C60",
   "status": "partial",
   "theorems": [
    "Verif.Polygon.C60_scan_partial",
    "Verif.Polygon.C60_scan_violated"
   ],
   "note": "Exact for polygons not reaching left of the pixel frame; violated to its left because of truncation towards zero and negative slices."
  },
  {
   "property": "C61",
   "status": "partial",
   "theorems": [
    "Verif.Polygon.C61_pixel_map_partial",
    "Verif.Polygon.C61_pixel_map_violated"
   ],
   "note": "Exact for cells within the frame; violated for cells across the east or west side of the frame."
  },
  {
   "property": "C62",
   "status": "proved",
   "theorems": [
    "Verif.Lines.C62_blank_lines",
    "Verif.Lines.C62_read_back",
    "Verif.Lines.C62_all_or_nothing"
   ],
   "note": "Proved for all files."
  },
  {
   "property": "C63",
   "status": "partial",
   "theorems": [
    "Verif.TriMesh.C63_points_partial",
    "Verif.TriMesh.C63_big_violated"
   ],
   "note": "Node indices are right below 2^31 nodes; the integer type is narrow for big meshes (violated)."
  },
  {
   "property": "C64",
   "status": "partial",
   "theorems": [
    "Verif.TriMesh.C64_edges",
    "Verif.TriMesh.C64_edges_once",
    "Verif.TriMesh.C64_crossings_partial",
    "Verif.TriMesh.C64_count",
    "Verif.TriMesh.C64_node_violated"
   ],
   "note": "Sides with exactly zero at a node are missed (C64_node_violated); otherwise exact, with multiplicity."
  },
  {
   "property": "C65",
   "status": "partial",
   "theorems": [
    "Verif.TriMesh.C65_x_partial",
    "Verif.TriMesh.C65_y_partial",
    "Verif.TriMesh.C65_row_violated",
    "Verif.TriMesh.C65_x_violated"
   ],
   "note": "Proved for meshes with no origin that the points have the right coordinate; values on an exact row raise, and the origin is ignored (violated theorems)."
  },
  {
   "property": "C66",
   "status": "proved",
   "theorems": [
    "Verif.Wells.C66_xyz",
    "Verif.Wells.C66_xyz_datum",
    "Verif.Wells.C66_knots"
   ],
   "note": "Full iff, for trajectories starting below the datum, and for those starting at it if the first knot is at the datum."
  },
  {
   "property": "C67",
   "status": "proved",
   "theorems": [
    "Verif.Wells.C67_interval",
    "Verif.Wells.C67_cells_have_intervals",
    "Verif.Wells.C67_md_cell",
    "Verif.Wells.C67_cell_md",
    "Verif.Wells.C67_md_none",
    "Verif.Wells.C67_map",
    "Verif.Wells.C67_compressed"
   ],
   "note": "All five functions against one specification of the interval of a cell."
  },
  {
   "property": "C68",
   "status": "partial",
   "theorems": [
    "Verif.Wells.C68_contributions",
    "Verif.Wells.C68_kh",
    "Verif.Wells.C68_length",
    "Verif.Wells.C68_active_partial",
    "Verif.Wells.C68_active_violated",
    "Verif.Wells.C68_skin_partial",
    "Verif.Wells.C68_skin_violated",
    "Verif.Wells.C68_list",
    "Verif.Wells.C68_kh_total"
   ],
   "note": "A cell touching an active interval only at its start is made active (and gets skin 0): violated; the rest is exact, including conservation of permeability length."
  },
  {
   "property": "C69",
   "status": "partial",
   "theorems": [
    "Verif.Wells.C69_fraction_partial",
    "Verif.Wells.C69_none",
    "Verif.Wells.C69_overlapping_violated"
   ],
   "note": "Exact for perforations without overlap; overlapping ones are double counted (violated)."
  },
  {
   "property": "C70",
   "status": "partial",
   "theorems": [
    "Verif.Wells.Survey.C70_arc_partial",
    "Verif.Wells.Survey.C70_points_partial",
    "Verif.Wells.Survey.C70_vertical_violated",
    "Verif.Wells.Survey.C70_full_turn_violated",
    "Verif.Wells.Survey.C70_radians_violated"
   ],
   "note": "Proved with real trigonometry for surveys in degrees whose successive headings are neither equal (unless the angles are) nor opposite; vertical sections with different azimuths, azimuths 0 and 360, and surveys in radians violate."
  },
  {
   "property": "C71",
   "status": "partial",
   "theorems": [
    "Verif.Wells.Survey.C71_inclination_partial",
    "Verif.Wells.Survey.C71_up_violated"
   ],
   "note": "Straight up gives 0 instead of 180 (violated); exact otherwise."
  },
  {
   "property": "C72",
   "status": "partial",
   "theorems": [
    "Verif.CpGrid.C72_reloaded_corner",
    "Verif.CpGrid.C72_exact",
    "Verif.CpGrid.C72_gap_iff",
    "Verif.CpGrid.C72_mapping_agrees",
    "Verif.CpGrid.C72_memory_corner_partial",
    "Verif.CpGrid.C72_raw_index_violated",
    "Verif.CpGrid.C72_raw_index_more_violated"
   ],
   "note": "Violated: with K gaps the raw layer indices stored in the returned grid object are one too small (k + k_gaps for layer k + 1), so its points are read at the wrong interface until the grid is read back from file (C72_raw_index_violated); proved without K gaps (C72_memory_corner_partial) and for the grid read back. Cells without geometry (NaN, treat_as_nan) are not modelled."
  },
  {
   "property": "C73",
   "status": "proved",
   "theorems": [
    "Verif.CpGrid.C73_shared_line",
    "Verif.CpGrid.C73_unfaulted",
    "Verif.CpGrid.C73_primary_column"
   ],
   "note": "Proved for every tolerance, with the corner points as they are once voids are closed; cells without geometry (NaN, treat_as_nan) are not modelled."
  },
  {
   "property": "C74",
   "status": "partial",
   "theorems": [
    "Verif.Extract.C74_gaps",
    "Verif.Extract.C74_inactive",
    "Verif.Extract.C74_outside_refused",
    "Verif.Extract.C74_corners_partial",
    "Verif.Extract.C74_simple_faults_partial",
    "Verif.Extract.C74_unfaulted",
    "Verif.Extract.C74_corners_violated"
   ],
   "note": "Violated: where a pillar is split more than once and all the columns of the box around it use one extra pillar that is followed in the tables by another from the same natural pillar, the extracted corner is given the points of the natural pillar (C74_corners_violated). Proved whenever that does not happen (C74_corners_partial), in particular when no pillar is split more than once (C74_simple_faults_partial) and for unfaulted grids. K gaps and inactive mask proved in full. Arrays of undefined geometry, stored properties and parent windows are not modelled."
  },
  {
   "property": "C75",
   "status": "partial",
   "theorems": [
    "Verif.Upscale.C75_volumes_conserved_partial",
    "Verif.Upscale.C75_field_totals_partial",
    "Verif.Upscale.C75_means_in_range_partial",
    "Verif.Upscale.C75_volumes_conserved_geometry_partial",
    "Verif.Upscale.C75_lengths_in_range",
    "Verif.Upscale.C75_discrete_value_taken",
    "Verif.Upscale.C75_rock_volume_is_pore_volume_violated",
    "Verif.Upscale.C75_rock_volume_violated",
    "Verif.Upscale.C75_grid_volumes_kept_violated",
    "Verif.Upscale.C75_permeability_weights_violated",
    "Verif.Upscale.C75_missing_values_violated",
    "Verif.Upscale.C75_realizations_violated"
   ],
   "note": "Proved with rock volume, net to gross and porosity present and no missing values; also with volumes from geometry. Violated without net to gross: the stored coarse rock volume is multiplied in place by porosity (and with no rock volume property so is the grid's own volume array); permeability is weighted by pore volume; missing values bias means; with several realizations the last one's volumes weight them all."
  },
  {
   "property": "C76",
   "status": "partial",
   "theorems": [
    "Verif.Decoarsen.C76_icoars_partial",
    "Verif.Decoarsen.C76_kid_partial",
    "Verif.Decoarsen.C76_identity",
    "Verif.Decoarsen.C76_kinds",
    "Verif.Decoarsen.C76_planes_aligned",
    "Verif.Decoarsen.C76_skipped_property_violated",
    "Verif.Decoarsen.C76_skipped_first_violated",
    "Verif.Decoarsen.C76_kid_not_aligned_violated"
   ],
   "note": "Proved for every division into boxes given by ICOARS, and by KID data when the boxes are aligned (divisions by planes always are). Violated for transmissibility and for lengths without direction, which are replaced by the values of the property before them (or raise an error if first), and for KID data with boxes not aligned, where volume is lost."
  },
  {
   "property": "C77",
   "status": "proved",
   "theorems": [
    "Verif.Refine.C77_refined",
    "Verif.Refine.C77_every_slice",
    "Verif.Refine.C77_coarse_corners_kept",
    "Verif.Refine.C77_refined_corner_points",
    "Verif.Refine.C77_refused"
   ],
   "note": "Proved for grids without split pillars (points) and, for those with, for the corner points handed to grid_from_cp (C72, C73 say what that makes of them). Geometry defined everywhere; exact numbers."
  },
  {
   "property": "C78",
   "status": "partial",
   "theorems": [
    "Verif.Refine.C78_sampled",
    "Verif.Refine.C78_lengths",
    "Verif.Refine.C78_lengths_add_up",
    "Verif.Refine.C78_selected",
    "Verif.Refine.C78_constant_length_violated",
    "Verif.Refine.C78_string_lookup_lost_violated"
   ],
   "note": "Violated for cell lengths given as a constant, which are not scaled (C78_constant_length_violated), and for the string lookup of categorical properties, which is not handed on (C78_string_lookup_lost_violated). The other parts are proved."
  },
  {
   "property": "C79",
   "status": "proved",
   "theorems": [
    "Verif.Refine.C79_coarsened",
    "Verif.Refine.C79_refine_then_coarsen",
    "Verif.Refine.C79_refused"
   ],
   "note": "Geometry taken as defined everywhere; properties of the coarsened grid are C75."
  },
  {
   "property": "C80",
   "status": "partial",
   "theorems": [
    "Verif.Derived.C80_unsplit_points",
    "Verif.Derived.C80_unfaulted_nodes_kept",
    "Verif.Derived.C80_unsplit_points_plain",
    "Verif.Derived.C80_asked_again",
    "Verif.Derived.C80_unsplit_grid_partial",
    "Verif.Derived.C80_gaps_violated",
    "Verif.Derived.C80_unfaulted_refused"
   ],
   "note": "unsplit_grid fails on grids with K gaps (C80_gaps_violated). Undefined points not modelled."
  },
  {
   "property": "C81",
   "status": "partial",
   "theorems": [
    "Verif.Derived.C81_single_layer",
    "Verif.Derived.C81_zonal_partial",
    "Verif.Derived.C81_zone_base_violated",
    "Verif.Derived.C81_first_layer_collapsed_violated",
    "Verif.Derived.C81_one_range_ignored_violated",
    "Verif.Derived.C81_regular_partial",
    "Verif.Derived.C81_regular_origin_violated"
   ],
   "note": "Violations: the base of the layer of a zone is put at the top of the last layer of the zone; a first zone of one layer collapses; a list with one range is ignored; the origin of a regular grid is not moved to the first layer chosen. Proved: single layer grids, inactive masks, and what is made of zones."
  },
  {
   "property": "C82",
   "status": "partial",
   "theorems": [
    "Verif.Derived.C82_pillars_partial",
    "Verif.Derived.C82_corners_partial",
    "Verif.Derived.C82_corners_exact_partial",
    "Verif.Derived.C82_any_faults_partial",
    "Verif.Derived.C82_inactive",
    "Verif.Derived.C82_refused",
    "Verif.Derived.C82_gaps_violated"
   ],
   "note": "C82_corners_partial and C82_corners_exact_partial cover grids with different faults, C82_pillars_partial those with the same. C82_gaps_violated: the K gaps of the two grids are forgotten, so layers of the new grid are in the wrong place. Undefined points are left out."
  },
  {
   "property": "C83",
   "status": "partial",
   "theorems": [
    "Verif.Derived.C83_decay",
    "Verif.Derived.C83_adjusted_partial",
    "Verif.Derived.C83_thickness_partial",
    "Verif.Derived.C83_rotated_refused",
    "Verif.Derived.C83_negative_rotation_violated",
    "Verif.Derived.C83_negative_radius_violated"
   ],
   "note": "Violations: a negative rotation of the coordinate reference system is not noticed; a negative radius is accepted. Proved for positive radii and no rotation."
  },
  {
   "property": "C84",
   "status": "proved",
   "theorems": [
    "Verif.Derived.C84_shift_at_faults",
    "Verif.Derived.C84_throws_scaled",
    "Verif.Derived.C84_mean_kept",
    "Verif.Derived.C84_pillars_moved_whole",
    "Verif.Derived.C84_far_kept",
    "Verif.Derived.C84_decay",
    "Verif.Derived.C84_along_pillar",
    "Verif.Derived.C84_factor_one",
    "Verif.Derived.C84_refused"
   ],
   "note": "The scaling of faults by name (scaling_dict) is not modelled; there are no K gaps and geometry is defined everywhere. C84_factor_one and C84_along_pillar need pillars with height: numpy divides by it."
  },
  {
   "property": "C85",
   "status": "partial",
   "theorems": [
    "Verif.Derived.C85_shifts",
    "Verif.Derived.C85_on_surface",
    "Verif.Derived.C85_thickness_throw_kept",
    "Verif.Derived.C85_refused",
    "Verif.Derived.C85_unsplit_points_stale_violated"
   ],
   "note": "C85_unsplit_points_stale_violated: unsplit_points_ref of the grid which is returned gives the points of before, because the answer is kept before the points are shifted. The surface is given by what a line is found to meet."
  },
  {
   "property": "C86",
   "status": "partial",
   "theorems": [
    "Verif.AddFaults.C86_corners_moved",
    "Verif.AddFaults.C86_tables_in_order",
    "Verif.AddFaults.C86_again",
    "Verif.AddFaults.C86_simple_path",
    "Verif.AddFaults.C86_elsewhere",
    "Verif.AddFaults.C86_along_pillar_partial",
    "Verif.AddFaults.C86_several",
    "Verif.AddFaults.C86_one_layer_violated"
   ],
   "note": "corner positions found with the tables before and after, for any number of faults (C86_corners_moved, C86_several); tables in order (C86_tables_in_order) and unchanged by the same path again (C86_again). Along the pillar only if its points down to the last but one go the same way as the whole; with one layer the move is vertical (violated). Undefined points and the conversion of lines to pillars are not modelled here"
  },
  {
   "property": "C87",
   "status": "proved",
   "theorems": [
    "Verif.Geom.C87_line_triangle",
    "Verif.Geom.C87_line_triangle_none",
    "Verif.Geom.C87_tolerances",
    "Verif.Geom.C87_line_plane",
    "Verif.Geom.C87_many_triangles",
    "Verif.Geom.C87_many_lines",
    "Verif.Geom.C87_distilled",
    "Verif.Geom.C87_by_line_and_triangle",
    "Verif.Geom.C87_last",
    "Verif.Geom.C87_first",
    "Verif.Geom.C87_poly_line"
   ],
   "note": "exact field in place of floats; the numba versions have the same text"
  },
  {
   "property": "C88",
   "status": "partial",
   "theorems": [
    "Verif.Geom.C88_lines",
    "Verif.Geom.C88_segments",
    "Verif.Geom.C88_projected",
    "Verif.Geom.C88_snapped_partial",
    "Verif.Geom.C88_snapped_violated",
    "Verif.Geom.C88_distance_line",
    "Verif.Geom.C88_distance_segment"
   ],
   "note": "C88_snapped_violated: with a segment of no length snapping returns None for a point rather than the end (two coinciding points of a polyline reach this); the partial theorem covers all other segments"
  },
  {
   "property": "C89",
   "status": "partial",
   "theorems": [
    "Verif.Geom.C89_batches",
    "Verif.Geom.C89_found_are_inside",
    "Verif.Geom.C89_mesh_points_partial",
    "Verif.Geom.C89_once",
    "Verif.Geom.C89_upright_violated",
    "Verif.Geom.C89_sampled",
    "Verif.Geom.C89_sampled_points_partial",
    "Verif.Geom.C89_one_value"
   ],
   "note": "C89_upright_violated: a triangle whose corners all have the same x (seen edge on, in the scan direction) misses the mesh points beyond its first two corners; the partial theorems cover all other triangles, and soundness (C89_found_are_inside, C89_sampled) holds for all"
  },
  {
   "property": "C90",
   "status": "partial",
   "theorems": [
    "Verif.FindFaces.C90_found",
    "Verif.FindFaces.C90_all_found_partial",
    "Verif.FindFaces.C90_curtain_partial",
    "Verif.FindFaces.C90_upright_violated",
    "Verif.FindFaces.C90_depth_violated",
    "Verif.FindFaces.C90_curtain_triangles_violated"
   ],
   "note": "Soundness of faces, triangles, depth along the axis and offsets is proved for all inputs (C90_found); completeness for triangles which are not edge on to the axis (C90_all_found_partial, C90_curtain_partial). Violated by the code: an upright triangle exactly through the centres of a column can be missed; 'depth' is the y or x coordinate for J or I faces; in curtain mode with several layers triangles, depths and offsets are repeated in another order than the faces. The further order of properties when a connection set is made without duplicates is C49. Not modelled: change of crs, agitation, progress function, flange bool."
  },
  {
   "property": "C91",
   "status": "partial",
   "theorems": [
    "Verif.FindFaces.C91_raw",
    "Verif.FindFaces.C91_raw_arrays",
    "Verif.FindFaces.C91_leak",
    "Verif.FindFaces.C91_leak_arrays",
    "Verif.FindFaces.C91_shallow",
    "Verif.FindFaces.C91_shallow_arrays",
    "Verif.FindFaces.C91_curtain_partial",
    "Verif.FindFaces.C91_curtain_violated"
   ],
   "note": "Raw bisectors, leaks, and shallower sides proved for both functions. Report of a curtain: proved that surfaces alike in all layers are reported; the converse is violated by a symmetric (chevron) surface."
  },
  {
   "property": "C92",
   "status": "proved",
   "theorems": [
    "Verif.FindFaces.C92_connected"
   ],
   "note": "Proved."
  },
  {
   "property": "C93",
   "status": "partial",
   "theorems": [
    "Verif.FindFaces.C93_shadow_arrays",
    "Verif.FindFaces.C93_shadow_partial",
    "Verif.FindFaces.C93_no_faces_violated"
   ],
   "note": "Proved for arrays (any list of faces) and for indices of faces when there is a list. Violated: without K faces the finder passes None and an error is raised rather than a shadow of zeros returned."
  },
  {
   "property": "C94",
   "status": "partial",
   "theorems": [
    "Verif.Rotate.C94_azimuth_range",
    "Verif.Rotate.C94_azimuth",
    "Verif.Rotate.C94_unit_of_azimuth",
    "Verif.Rotate.C94_azimuth_of_unit",
    "Verif.Rotate.C94_azimuths_partial",
    "Verif.Rotate.C94_azimuths_violated",
    "Verif.Rotate.C94_inclination",
    "Verif.Rotate.C94_unit_from_both",
    "Verif.Rotate.C94_unit_of_both",
    "Verif.Rotate.C94_both_of_unit",
    "Verif.Rotate.C94_angle",
    "Verif.Rotate.C94_unit_vectors",
    "Verif.Rotate.C94_unit_vectors_3d_violated"
   ],
   "note": "partial: azimuths of an array holding a vertical or zero vector are not-a-number where the single function returns 0, and unit_vectors on an array of three dimensions with a zero vector zeroes other vectors (or raises IndexError): both negations proved."
  },
  {
   "property": "C95",
   "status": "partial",
   "theorems": [
    "Verif.Rotate.C95_axial",
    "Verif.Rotate.C95_axial_turns",
    "Verif.Rotate.C95_axial_add",
    "Verif.Rotate.C95_three_turns",
    "Verif.Rotate.C95_reverse",
    "Verif.Rotate.C95_rotated_array",
    "Verif.Rotate.C95_cross_section",
    "Verif.Rotate.C95_vector_partial",
    "Verif.Rotate.C95_vector_violated"
   ],
   "note": "partial: for a vector straight along negative z the matrix is not made of numbers (negation proved); all else is proved for all angles."
  },
  {
   "property": "C96",
   "status": "proved",
   "theorems": [
    "Verif.Rotate.C96_tilt",
    "Verif.Rotate.C96_tilt_back"
   ],
   "note": "The effect on a whole grid is the effect on its list of points: other parts of the grid are copied and are not modelled here."
  },
  {
   "property": "C97",
   "status": "partial",
   "theorems": [
    "Verif.Rotate.C97_project_partial",
    "Verif.Rotate.C97_mirrored_partial",
    "Verif.Rotate.C97_project_violated"
   ],
   "note": "partial: for a sloping normal the points are moved onto the mirrored plane, as the tilt has the wrong sign (negation proved). Level and upright planes are proved, and what does happen for other planes."
  },
  {
   "property": "C98",
   "status": "partial",
   "theorems": [
    "Verif.Delaunay.C98_delaunay",
    "Verif.Delaunay.C98_straight",
    "Verif.Delaunay.C98_three_points_violated",
    "Verif.Delaunay.C98_arrays"
   ],
   "note": "For three points the one triangle is that of the points in the order given, which can be clockwise or flat: C98_three_points_violated. Exact arithmetic; the limit on the depth of recursion in Python is not modelled; that the union of the triangles is the convex hull is not claimed (the documentation of container_size_factor says it need not be)."
  },
  {
   "property": "C99",
   "status": "proved",
   "theorems": [
    "Verif.Delaunay.C99_every_point",
    "Verif.Delaunay.C99_boundary"
   ],
   "note": "Stated for the list before it is sorted clockwise by vec.clockwise_sorted_indices."
  },
  {
   "property": "C100",
   "status": "partial",
   "theorems": [
    "Verif.PropColl.C100_select_partial",
    "Verif.PropColl.C100_uom_ignored_violated",
    "Verif.PropColl.C100_uom_ignored",
    "Verif.PropColl.C100_any_kind_violated",
    "Verif.PropColl.C100_any_time_index_violated",
    "Verif.PropColl.C100_singleton_partial"
   ],
   "note": "uom is not looked at (C100_uom_ignored, _violated); * for the property kind selects nothing; * for the time index raises TypeError."
  },
  {
   "property": "C101",
   "status": "partial",
   "theorems": [
    "Verif.PropColl.C101_inherit_selectively_partial",
    "Verif.PropColl.C101_inherit_all",
    "Verif.PropColl.C101_members_kept",
    "Verif.PropColl.C101_similar_over_time_partial",
    "Verif.PropColl.C101_similar_over_realizations_partial",
    "Verif.PropColl.C101_similar_over_facets_partial",
    "Verif.PropColl.C101_similar_over_time_violated"
   ],
   "note": "Where the example has no realization or facet, members with any are taken: C101_similar_over_time_violated."
  },
  {
   "property": "C102",
   "status": "partial",
   "theorems": [
    "Verif.PropColl.C102_single_partial",
    "Verif.PropColl.C102_uom_order_violated",
    "Verif.PropColl.C102_stale_violated",
    "Verif.PropColl.C102_stale",
    "Verif.PropColl.C102_multiple_realizations",
    "Verif.PropColl.C102_time_set",
    "Verif.PropColl.C102_assign_realizations"
   ],
   "note": "Answers are kept from the first time of asking and not renewed (C102_stale); has_single_uom with a leading None depends on order."
  },
  {
   "property": "C103",
   "status": "partial",
   "theorems": [
    "Verif.PropColl.C103_filled",
    "Verif.PropColl.C103_present",
    "Verif.PropColl.C103_facets",
    "Verif.PropColl.C103_succeeds",
    "Verif.PropColl.C103_mixed_kinds_violated"
   ],
   "note": "Arrays are lists of elements of one size; conversion of element types is not modelled. The refusal of mixed kinds relies on an answer that may be stale: C103_mixed_kinds_violated."
  },
  {
   "property": "C104",
   "status": "partial",
   "theorems": [
    "Verif.PropColl.C104_masked_partial",
    "Verif.PropColl.C104_null_zero",
    "Verif.PropColl.C104_null_zero_violated",
    "Verif.PropColl.C104_part_partial",
    "Verif.PropColl.C104_nan_violated",
    "Verif.PropColl.C104_points_partial",
    "Verif.PropColl.C104_points_violated",
    "Verif.PropColl.C104_points_part_violated"
   ],
   "note": "A null value of zero never hides anything (if exclude_value:); NaN is never hidden; points on supports with several axes are wrongly masked or raise ValueError; cached_part_array_ref does not mask points."
  },
  {
   "property": "C105",
   "status": "partial",
   "theorems": [
    "Verif.PropColl.C105_import_partial",
    "Verif.PropColl.C105_null_zero_violated",
    "Verif.PropColl.C105_inactive_violated",
    "Verif.PropColl.C105_import_constant",
    "Verif.PropColl.C105_xml_partial",
    "Verif.PropColl.C105_xml_null_violated",
    "Verif.PropColl.C105_xml_constant_violated"
   ],
   "note": "Null values of a discrete array count in the xml, and in the imported list when null is zero; a null value that does not occur changes which cells count; a constant equal to its null value is written."
  },
  {
   "property": "C106",
   "status": "partial",
   "theorems": [
    "Verif.PropColl.C106_range_partial",
    "Verif.PropColl.C106_linear",
    "Verif.PropColl.C106_cycle",
    "Verif.PropColl.C106_order_partial",
    "Verif.PropColl.C106_zero_partial",
    "Verif.PropColl.C106_zero_violated",
    "Verif.PropColl.C106_all_nan_violated",
    "Verif.PropColl.C106_refused"
   ],
   "note": "Exact numbers; infinities not modelled; limits taken from metadata are assumed right. Zero goes to 0.5 when all data are zero, or the end limit is zero; all NaN gives None rather than NaN limits. Order under logarithms is not claimed."
  },
  {
   "property": "C107",
   "status": "proved",
   "theorems": [
    "Verif.PropColl.C107_faces_order",
    "Verif.PropColl.C107_faces_round_trip",
    "Verif.PropColl.C107_faces_refused",
    "Verif.PropColl.C107_same_faces",
    "Verif.PropColl.C107_edges"
   ],
   "note": "A plain PropertyCollection has no face maps (only GridPropertyCollection sets them), so the two methods are for collections of grids."
  },
  {
   "property": "C108",
   "status": "partial",
   "theorems": [
    "Verif.PropColl.C108_written_partial",
    "Verif.PropColl.C108_read_back_partial",
    "Verif.PropColl.C108_packing_violated",
    "Verif.PropColl.C108_constant_violated",
    "Verif.PropColl.C108_part"
   ],
   "note": "The dtype pack stays set for all later arrays: C108_packing_violated; integer and boolean types only."
  },
  {
   "property": "C109",
   "status": "partial",
   "theorems": [
    "Verif.PropColl.C109_metadata_partial",
    "Verif.PropColl.C109_discrete_violated",
    "Verif.PropColl.C109_lookup_violated"
   ],
   "note": "discrete is taken from the unit of measure and the string lookup from the time series."
  },
  {
   "property": "C110",
   "status": "proved",
   "theorems": [
    "Verif.Plane.C110_crossings",
    "Verif.Plane.C110_start_and_direction",
    "Verif.Plane.C110_cut",
    "Verif.Plane.C110_same_as_crossing_number",
    "Verif.Plane.C110_triangle",
    "Verif.Plane.C110_versions_agree",
    "Verif.Plane.C110_shared_side",
    "Verif.Plane.C110_listed",
    "Verif.Plane.C110_listed_many"
   ],
   "note": "Exact numbers; a polygon number of -1 lists nothing in points_in_polygon and is left out. Agreement with pip_cn (C36) holds off the boundary."
  },
  {
   "property": "C111",
   "status": "partial",
   "theorems": [
    "Verif.Plane.C111_inside",
    "Verif.Plane.C111_edged_partial",
    "Verif.Plane.C111_edged_violated",
    "Verif.Plane.C111_shape"
   ],
   "note": "With edged, a point in line with the corners of a triangle without area is found to be in it: C111_edged_violated."
  },
  {
   "property": "C112",
   "status": "proved",
   "theorems": [
    "Verif.Plane.C112_mesh",
    "Verif.Plane.C112_once",
    "Verif.Plane.C112_inside"
   ],
   "note": "Exact numbers: rounding of the division by the spacing is not modelled."
  },
  {
   "property": "C113",
   "status": "proved",
   "theorems": [
    "Verif.Plane.C113_area",
    "Verif.Plane.C113_areas",
    "Verif.Plane.C113_normal",
    "Verif.Plane.C113_circumcentre"
   ],
   "note": "Real numbers; Heron's formula can lose accuracy with floats, which is not modelled."
  },
  {
   "property": "C114",
   "status": "proved",
   "theorems": [
    "Verif.Plane.C114_nearest",
    "Verif.Plane.C114_projection",
    "Verif.Plane.C114_clockwise",
    "Verif.Plane.C114_too_few",
    "Verif.Plane.C114_turn",
    "Verif.Plane.C114_axis",
    "Verif.Plane.C114_no_points"
   ],
   "note": "Indices into the flattened array; the order of equal values in xy_sorted, unspecified by argsort, is not claimed; NaN is not modelled for sorting."
  },
  {
   "property": "C115",
   "status": "partial",
   "theorems": [
    "Verif.Transmit.C115_value",
    "Verif.Transmit.C115_gaps_violated",
    "Verif.Transmit.C115_box_partial",
    "Verif.Transmit.C115_regular_partial",
    "Verif.Transmit.C115_moved",
    "Verif.Transmit.C115_turned_violated",
    "Verif.Transmit.C115_darcy"
   ],
   "note": "Real numbers. Grids with K gaps and without split pillars raise AssertionError (C115_gaps_violated); for cells with slanting edges the value changes when the whole grid is turned (C115_turned_violated), since areas are projected onto coordinate planes."
  },
  {
   "property": "C116",
   "status": "partial",
   "theorems": [
    "Verif.Transmit.C116_series",
    "Verif.Transmit.C116_bounds",
    "Verif.Transmit.C116_computed_partial",
    "Verif.Transmit.C116_cache_violated",
    "Verif.Transmit.C116_realization",
    "Verif.Transmit.C116_stored",
    "Verif.Transmit.C116_not_stored_violated",
    "Verif.Transmit.C116_modifiers_violated",
    "Verif.Transmit.C116_half_property_violated",
    "Verif.Transmit.C116_half_tolerance_violated",
    "Verif.Transmit.C116_half_kept"
   ],
   "note": "Exact numbers. Violated: multipliers and absolute values raise ValueError in every modifier mode (C116_modifiers_violated); use_tr_properties=False raises UnboundLocalError (C116_not_stored_violated); a stored half cell property cannot be used (C116_half_property_violated); the cached K and J arrays are returned whatever tolerance a later call asks for, the I array is not (C116_cache_violated); the tolerance given for half cells makes no difference (C116_half_tolerance_violated)."
  },
  {
   "property": "C117",
   "status": "partial",
   "theorems": [
    "Verif.Transmit.C117_exact_partial",
    "Verif.Transmit.C117_steep_violated",
    "Verif.Transmit.C117_never_raises",
    "Verif.Transmit.C117_no_points_violated",
    "Verif.Transmit.C117_totals",
    "Verif.Transmit.C117_areas_partial",
    "Verif.Transmit.C117_fault"
   ],
   "note": "Real numbers. The fraction is wrong where a layer boundary goes right across a face of unequal heights (C117_steep_violated); a pillar without points raises an exception (C117_no_points_violated)."
  },
  {
   "property": "C118",
   "status": "partial",
   "theorems": [
    "Verif.Transmit.Prism.C118_lengths",
    "Verif.Transmit.Prism.C118_vertical",
    "Verif.Transmit.Prism.C118_sides_partial",
    "Verif.Transmit.Prism.C118_thickness",
    "Verif.Transmit.Prism.C118_height_violated",
    "Verif.Transmit.Prism.C118_order_violated",
    "Verif.Transmit.Prism.C118_triple",
    "Verif.Transmit.Prism.C118_stored_violated"
   ],
   "note": "Real numbers. Violated: the height of side faces is left out (C118_height_violated); values for side faces are one place out of the order in which cells list their faces (C118_order_violated); a stored property raises ValueError and one layer grids an assertion (C118_stored_violated)."
  },
  {
   "property": "C119",
   "status": "partial",
   "theorems": [
    "Verif.Unstruct.C119_rows",
    "Verif.Unstruct.C119_packable",
    "Verif.Unstruct.C119_max_count_partial",
    "Verif.Unstruct.C119_max_count_violated",
    "Verif.Unstruct.C119_cells_per_face",
    "Verif.Unstruct.C119_masked_cells_per_face",
    "Verif.Unstruct.C119_external_partial",
    "Verif.Unstruct.C119_masked_faces",
    "Verif.Unstruct.C119_masked_faces_refused",
    "Verif.Unstruct.C119_refused_once_violated",
    "Verif.Unstruct.C119_external_unused_violated",
    "Verif.Unstruct.C119_distinct_nodes",
    "Verif.Unstruct.C119_edges",
    "Verif.Unstruct.C119_ordered_edges",
    "Verif.Unstruct.C119_distinct_edges",
    "Verif.Unstruct.C119_pyramid_faces"
   ],
   "note": "Violated: the largest number of faces of a cell (nodes of a face) is not available for grids with one cell (face) (C119_max_count_violated); a topology refused at first is accepted on the second call because the table is cached before it is filled (C119_refused_once_violated); a face used by no cell is reported as external once the table was made without the check (C119_external_unused_violated)."
  },
  {
   "property": "C120",
   "status": "partial",
   "theorems": [
    "Verif.Unstruct.Hexa.C120_face_nodes",
    "Verif.Unstruct.Hexa.C120_shared_faces",
    "Verif.Unstruct.Hexa.C120_valid",
    "Verif.Unstruct.Hexa.C120_external",
    "Verif.Unstruct.Hexa.C120_corner_points",
    "Verif.Unstruct.Hexa.C120_volume_partial",
    "Verif.Unstruct.Hexa.C120_volume_agrees_partial",
    "Verif.Unstruct.Hexa.C120_volume_sign_violated",
    "Verif.Unstruct.Hexa.C120_unit_cube_violated"
   ],
   "note": "Real numbers. Volumes have the right sign only in a left handed coordinate reference system; where z increases upwards all volumes are negative (C120_volume_sign_violated, C120_unit_cube_violated)."
  },
  {
   "property": "C121",
   "status": "proved",
   "theorems": [
    "Verif.TriEdges.C121_edges",
    "Verif.TriEdges.C121_rim_edges",
    "Verif.TriEdges.C121_triangles_using",
    "Verif.TriEdges.C121_triangles_using_edges",
    "Verif.TriEdges.C121_triangles_using_edges_values"
   ],
   "note": "Stated for point indices as natural numbers."
  },
  {
   "property": "C122",
   "status": "proved",
   "theorems": [
    "Verif.TriEdges.C122_fuel",
    "Verif.TriEdges.C122_rims",
    "Verif.TriEdges.C122_rims_found",
    "Verif.TriEdges.C122_rims_of_surface",
    "Verif.TriEdges.C122_three_triangles_on_an_edge"
   ],
   "note": "Edges shared by three triangles leave rim edges which do not close up and are refused by an assertion (C122_three_triangles_on_an_edge)."
  },
  {
   "property": "C123",
   "status": "partial",
   "theorems": [
    "Verif.Unstruct.Prism.C123_find_pair",
    "Verif.Unstruct.Prism.C123_made",
    "Verif.Unstruct.Prism.C123_faces",
    "Verif.Unstruct.Prism.C123_shared",
    "Verif.Unstruct.Prism.C123_valid",
    "Verif.Unstruct.Prism.C123_external",
    "Verif.Unstruct.Prism.C123_corners",
    "Verif.Unstruct.Prism.C123_triangulation_partial",
    "Verif.Unstruct.Prism.C123_triangulation_violated",
    "Verif.Unstruct.Prism.C123_z_values",
    "Verif.Unstruct.Prism.C123_in_order"
   ],
   "note": "Violated: a grid with a single layer does not give back its triangulation, because the number of columns is refused (C123_triangulation_violated; C123_triangulation_partial holds from two layers). Where the vertical line through a point meets a surface is an argument of the model (ray intersections are C63, C64)."
  },
  {
   "property": "C124",
   "status": "partial",
   "theorems": [
    "Verif.Unstruct.Tetra.C124_divided",
    "Verif.Unstruct.Tetra.C124_shared_faces",
    "Verif.Unstruct.Tetra.C124_volume",
    "Verif.Unstruct.Tetra.C124_tetrahedron",
    "Verif.Unstruct.Tetra.C124_prism",
    "Verif.Unstruct.Tetra.C124_prism_centre",
    "Verif.Unstruct.Tetra.C124_pyramid",
    "Verif.Unstruct.Tetra.C124_enclosed",
    "Verif.Unstruct.Tetra.C124_enclosed_volume_partial",
    "Verif.Unstruct.Tetra.C124_at_least_enclosed",
    "Verif.Unstruct.Tetra.C124_hollow_violated"
   ],
   "note": "Exact numbers; the triangulation of each face (scipy Delaunay) is an argument: any triangles with corners among the nodes of the faces. Violated for cells with a hollow such that the centre is not inside: 11 instead of 3/2 (C124_hollow_violated); the returned volume is never less than the enclosed one (C124_at_least_enclosed)."
  },
  {
   "property": "C125",
   "status": "partial",
   "theorems": [
    "Verif.Blocking.C125_counts",
    "Verif.Blocking.C125_measured_depths",
    "Verif.Blocking.C125_increasing_partial",
    "Verif.Blocking.C125_intervals",
    "Verif.Blocking.C125_cells_partial",
    "Verif.Blocking.C125_faces",
    "Verif.Blocking.C125_column",
    "Verif.Blocking.C125_other_grid_violated",
    "Verif.Blocking.C125_first_row_violated",
    "Verif.Blocking.C125_angles_violated",
    "Verif.Blocking.C125_upwards_violated",
    "Verif.Blocking.C125_columns_violated",
    "Verif.Blocking.C125_dates_violated",
    "Verif.Blocking.C125_wellspec_partial",
    "Verif.Blocking.C125_face_centre",
    "Verif.Blocking.C125_start"
   ],
   "note": "Proved when no angles are given (face centres are then always used), every row has its indices and names no other grid. Violated: only the first of several rows of another grid is passed over (C125_other_grid_violated); a table whose first row is passed over fails (C125_first_row_violated); with angle columns and use_face_centres False nothing is ever derived (C125_angles_violated); a well starting upwards enters and leaves its first cell by the same face (C125_upwards_violated); columns cannot be added as properties if a row was passed over (C125_columns_violated); well specifications with dates cannot be loaded with properties (C125_dates_violated). C125_increasing_partial: measured depths do not decrease if lengths are not negative. The length function (with its unit conversion), corner points and faces from angles are arguments."
  },
  {
   "property": "C126",
   "status": "partial",
   "theorems": [
    "Verif.Blocking.C126_rows_partial",
    "Verif.Blocking.C126_static_kh",
    "Verif.Blocking.C126_succeeds",
    "Verif.Blocking.C126_straight_violated",
    "Verif.Blocking.C126_no_trajectory_violated",
    "Verif.Blocking.C126_min_kh_violated",
    "Verif.Blocking.C126_min_length_violated",
    "Verif.Blocking.C126_pperf_violated",
    "Verif.Blocking.C126_depth_violated",
    "Verif.Blocking.C126_depth_partial",
    "Verif.Blocking.C126_as_properties_violated",
    "Verif.Blocking.C126_default_radius_violated"
   ],
   "note": "C126_rows_partial: columns not taken from properties of the well; saturations at most one, lengths and permeability thickness not negative. Violated: straight lengths fail unless something needs entry and exit points (C126_straight_violated); no table without trajectory and unit (C126_no_trajectory_violated); limits on permeability thickness and length not applied to columns from properties (C126_min_kh_violated, C126_min_length_violated); lengths not scaled where the perforated fraction is a property (C126_pperf_violated); depth negated with straight lengths and no direction given (C126_depth_violated); columns cannot be kept as properties if some intervals were left out (C126_as_properties_violated); default radius in metres for grids in feet (C126_default_radius_violated). The permeability thickness of an interval is an argument here; see C127."
  },
  {
   "property": "C127",
   "status": "partial",
   "theorems": [
    "Verif.Blocking.C127_across",
    "Verif.Blocking.C127_bounds",
    "Verif.Blocking.C127_signs",
    "Verif.Blocking.C127_never_raises",
    "Verif.Blocking.C127_preferential",
    "Verif.Blocking.C127_vertical_net",
    "Verif.Blocking.C127_three",
    "Verif.Blocking.C127_three_net",
    "Verif.Blocking.C127_only_one_violated",
    "Verif.Blocking.C127_named_twice",
    "Verif.Blocking.C127_no_vertical_violated",
    "Verif.Blocking.C127_left_out"
   ],
   "note": "Violated: permeability along i alone with a net to gross ratio other than one raises (C127_only_one_violated, C127_named_twice: naming it twice works); cells without vertical permeability have no permeability thickness unless exactly vertical (C127_no_vertical_violated). Angles by sine and cosine; exact real numbers."
  },
  {
   "property": "C128",
   "status": "partial",
   "theorems": [
    "Verif.Blocking.C128_formula",
    "Verif.Blocking.C128_axes",
    "Verif.Blocking.C128_permeability_unit",
    "Verif.Blocking.C128_length_unit",
    "Verif.Blocking.C128_never_raises",
    "Verif.Blocking.C128_well_index_partial",
    "Verif.Blocking.C128_no_permeability",
    "Verif.Blocking.C128_small_cells_violated"
   ],
   "note": "Violated: for cells of about the size of the well, or well stimulated wells, WI is negative or its calculation fails (C128_small_cells_violated). Angles by sine and cosine; exact real numbers."
  },
  {
   "property": "C129",
   "status": "partial",
   "theorems": [
    "Verif.Blocking.C129_reference",
    "Verif.Blocking.C129_reference_down",
    "Verif.Blocking.C129_direction_partial",
    "Verif.Blocking.C129_range",
    "Verif.Blocking.C129_set_vertical",
    "Verif.Blocking.C129_upwards",
    "Verif.Blocking.C129_units_violated",
    "Verif.Blocking.C129_face_centres_violated",
    "Verif.Blocking.C129_turned_violated",
    "Verif.Blocking.C129_references",
    "Verif.Blocking.C129_one_unit"
   ],
   "note": "C129_direction_partial: units of x, y and z the same, same direction of z for grid and trajectory, same reference for both angles, I axis not along the reference. Violated: different units for x, y and z make vertical wells inclined (C129_units_violated); with face centres and a trajectory with z in the other direction a well going down is said to go up (C129_face_centres_violated); trajectories in a coordinate reference system turned from that of the grid (C129_turned_violated). Exact real numbers."
  },
  {
   "property": "C130",
   "status": "partial",
   "theorems": [
    "Verif.Polyline.C130_full_length",
    "Verif.Polyline.C130_segment",
    "Verif.Polyline.C130_interpolated",
    "Verif.Polyline.C130_unique",
    "Verif.Polyline.C130_ends",
    "Verif.Polyline.C130_equidistant",
    "Verif.Polyline.C130_centre",
    "Verif.Polyline.C130_centre_within",
    "Verif.Polyline.C130_trimmed",
    "Verif.Polyline.C130_scaled",
    "Verif.Polyline.C130_scaled_centre",
    "Verif.Polyline.C130_cache_violated",
    "Verif.Polyline.C130_no_length_violated"
   ],
   "note": "Violated by the cached centre: after the centre in plan was asked for, the centre in three dimensions has depth zero and scaled copies move vertically (C130_cache_violated); polylines without length raise an assertion error (C130_no_length_violated). Exact real numbers."
  },
  {
   "property": "C131",
   "status": "partial",
   "theorems": [
    "Verif.Polyline.C131_turns",
    "Verif.Polyline.C131_convex",
    "Verif.Polyline.C131_open",
    "Verif.Polyline.C131_again",
    "Verif.Polyline.C131_clockwise_partial",
    "Verif.Polyline.C131_area_partial",
    "Verif.Polyline.C131_normal_partial",
    "Verif.Polyline.C131_star_violated",
    "Verif.Polyline.C131_repeated_violated",
    "Verif.Polyline.C131_history_violated",
    "Verif.Polyline.C131_clockwise_violated",
    "Verif.Polyline.C131_normal_violated",
    "Verif.Polyline.C131_area_violated"
   ],
   "note": "C131_clockwise_partial: convex polygons, metadata without the answer. C131_area_partial: convex, at one depth. C131_normal_partial: right-handed map axes. Violated: stars are found convex (C131_star_violated), repeated corners make a convex polygon not convex (C131_repeated_violated), is_clockwise depends on whether is_convex was asked before for northing-easting axes (C131_history_violated), non-convex polygons with the wrong rotation (C131_clockwise_violated), normals pointing inwards for northing-easting axes (C131_normal_violated), slopes counted in the area (C131_area_violated). The area of non-convex polygons, by sampling, is not modelled."
  },
  {
   "property": "C132",
   "status": "partial",
   "theorems": [
    "Verif.Polyline.C132_closest",
    "Verif.Polyline.C132_snapped_partial",
    "Verif.Polyline.C132_snapped_violated",
    "Verif.Polyline.C132_open_violated",
    "Verif.Polyline.C132_xyz",
    "Verif.Polyline.C132_xyz_on",
    "Verif.Polyline.C132_first",
    "Verif.Polyline.C132_none",
    "Verif.Polyline.C132_crossings",
    "Verif.Polyline.C132_crossings_violated"
   ],
   "note": "C132_snapped_partial: segments with length in plan. Violated: no snapped point for segments without length in plan (C132_snapped_violated); a segment from last to first node of open polylines accepted (C132_open_violated); crossings listed twice (C132_crossings_violated). Segments parallel to the line are not met, in the code as in the theorems."
  },
  {
   "property": "C133",
   "status": "partial",
   "theorems": [
    "Verif.Polyline.C133_circle",
    "Verif.Polyline.C133_inside",
    "Verif.Polyline.C133_perimeter_partial",
    "Verif.Polyline.C133_square_violated",
    "Verif.Polyline.C133_slope_violated"
   ],
   "note": "Circle mode in full (C133_circle); perimeter mode for polygons at one depth and places on the edge not within 1e-9 of its end (C133_perimeter_partial); C133_inside for circle and perimeter. Violated in square mode, which is not injective (C133_square_violated), and in perimeter mode for polygons which slope (C133_slope_violated). Metadata does not say that the polygon is not convex; no centre is cached. Exact real numbers."
  },
  {
   "property": "C134",
   "status": "proved",
   "theorems": [
    "Verif.Polyline.C134_regular",
    "Verif.Polyline.C134_convex",
    "Verif.Polyline.C134_area"
   ],
   "note": "Exact real numbers. The area is the reported one with nothing in the metadata."
  },
  {
   "property": "C135",
   "status": "proved",
   "theorems": [
    "Verif.PolySet.C135_flags"
   ],
   "note": "The text of a boolean is modelled without white space or capitals around it."
  },
  {
   "property": "C136",
   "status": "partial",
   "theorems": [
    "Verif.PolySet.C136_compact",
    "Verif.PolySet.C136_round_trip",
    "Verif.PolySet.C136_closed_violated",
    "Verif.PolySet.C136_repeated_first_violated"
   ],
   "note": "Comparison of points within tolerance is any relation. Titles and interpretations are left out."
  },
  {
   "property": "C137",
   "status": "partial",
   "theorems": [
    "Verif.PolySet.C137_one_patch_partial",
    "Verif.PolySet.C137_later_patches_violated",
    "Verif.PolySet.C137_two_patches_violated"
   ],
   "note": "The cached arrays of the object are modelled as in _h5_array_element."
  },
  {
   "property": "C138",
   "status": "partial",
   "theorems": [
    "Verif.PolySet.C138_combined",
    "Verif.PolySet.C138_changed_violated",
    "Verif.PolySet.C138_twice_violated",
    "Verif.PolySet.C138_one_crs",
    "Verif.PolySet.C138_unchanged_partial"
   ],
   "note": "A conversion of coordinates is any function keeping the number of points; it is assumed not to raise."
  },
  {
   "property": "C139",
   "status": "partial",
   "theorems": [
    "Verif.PolySet.C139_read",
    "Verif.PolySet.C139_last_point_violated",
    "Verif.PolySet.C139_round_trip_partial",
    "Verif.PolySet.C139_closed_violated"
   ],
   "note": "A line of the file is given as its point and its last word used."
  },
  {
   "property": "C140",
   "status": "partial",
   "theorems": [
    "Verif.PolySet.C140_read",
    "Verif.PolySet.C140_first_point_violated",
    "Verif.PolySet.C140_round_trip_partial",
    "Verif.PolySet.C140_closed_violated",
    "Verif.PolySet.C140_repeated_first_violated"
   ],
   "note": "Numbers are written so that they are read back as they were (18 digits after the point in the code)."
  },
  {
   "property": "C141",
   "status": "proved",
   "theorems": [
    "Verif.Surface.C141_irregular_mesh",
    "Verif.Surface.C141_irregular_mesh_refused",
    "Verif.Surface.C141_torn_mesh",
    "Verif.Surface.C141_cover",
    "Verif.Surface.C141_no_overlap"
   ],
   "note": "Points of any kind; the covering is proved for flat meshes of unit squares. Negative triangle numbers are outside of the statement."
  },
  {
   "property": "C142",
   "status": "proved",
   "theorems": [
    "Verif.Surface.C142_sparse_mesh"
   ],
   "note": "A node is undefined if its depth is; points of any kind."
  },
  {
   "property": "C143",
   "status": "partial",
   "theorems": [
    "Verif.Surface.C143_faces",
    "Verif.Surface.C143_closed",
    "Verif.Surface.C143_index",
    "Verif.Surface.C143_many_cells",
    "Verif.Surface.C143_face_index_violated"
   ],
   "note": "The method of the patch, face_from_triangle_index, fails for every triangle, as it checks for numbers of nodes which the patch never has (C143_face_index_violated); the method of the surface is right."
  },
  {
   "property": "C144",
   "status": "proved",
   "theorems": [
    "Verif.Surface.C144_trimmed",
    "Verif.Surface.C144_refused"
   ],
   "note": "Being inside the box or the polygon is any test on points. A patch without points raises an error."
  },
  {
   "property": "C145",
   "status": "proved",
   "theorems": [
    "Verif.Surface.C145_split",
    "Verif.Surface.C145_sides"
   ],
   "note": "Exact arithmetic, any ordered field. Triangles which the line crosses are in both halves as a whole, so that the halves overlap along the line."
  },
  {
   "property": "C146",
   "status": "partial",
   "theorems": [
    "Verif.Surface.C146_composite",
    "Verif.Surface.C146_surface_index",
    "Verif.Surface.C146_combined",
    "Verif.Surface.C146_history_partial",
    "Verif.Surface.C146_repopulated_violated",
    "Verif.Surface.C146_multi_violated"
   ],
   "note": "Populating anew from a mesh, cells, a plane etc. leaves arrays in the cache, so that the old ones are returned (C146_repopulated_violated); populating from several patches keeps the old triangles and loses the points, owing to a misspelt attribute (C146_multi_violated). Proved for histories in which the cache is empty whenever these are called."
  },
  {
   "property": "C147",
   "status": "proved",
   "theorems": [
    "Verif.Surface.C147_sail_triangles",
    "Verif.Surface.C147_sail_points"
   ],
   "note": "Exact real numbers."
  },
  {
   "property": "C148",
   "status": "proved",
   "theorems": [
    "Verif.Surface.C148_plane"
   ],
   "note": "Exact arithmetic, any ordered field; the widened box is not degenerate."
  },
  {
   "property": "C149",
   "status": "partial",
   "theorems": [
    "Verif.Surface.C149_rescale",
    "Verif.Surface.C149_rescale_least_partial",
    "Verif.Surface.C149_just_loaded_violated"
   ],
   "note": "Without a reference depth the call fails on a surface which has just been loaded from a model, as the points of the patches are not there yet (C149_just_loaded_violated)."
  },
  {
   "property": "C150",
   "status": "proved",
   "theorems": [
    "Verif.Surface.C150_tsurf",
    "Verif.Surface.C150_out_of_sequence",
    "Verif.Surface.C150_in_range"
   ],
   "note": "Lines are given by their words and by whether VRTX and TRGL occur in them; reading a number is assumed to undo writing it."
  },
  {
   "property": "C151",
   "status": "partial",
   "theorems": [
    "Verif.Organize.C151_reuse",
    "Verif.Organize.C151_feature",
    "Verif.Organize.C151_feature_twice",
    "Verif.Organize.C151_never_reused_violated",
    "Verif.Organize.C151_unloadable_violated",
    "Verif.Organize.C151_generic_violated"
   ],
   "note": "Proved for every class of features. It does not hold for seven classes of interpretations, which are never reused, since the titles of the stored parts of both are compared and the new object has none (C151_never_reused_violated); nor if a part of the class does not load (C151_unloadable_violated); a second generic interpretation like the first fails (C151_generic_violated). Xml text is a tree of typed values."
  },
  {
   "property": "C152",
   "status": "partial",
   "theorems": [
    "Verif.Organize.C152_feature",
    "Verif.Organize.C152_boundary_interpretation",
    "Verif.Organize.C152_horizon",
    "Verif.Organize.C152_geobody_boundary",
    "Verif.Organize.C152_earth_model",
    "Verif.Organize.C152_geobody",
    "Verif.Organize.C152_wellbore",
    "Verif.Organize.C152_geologic_unit",
    "Verif.Organize.C152_fault_partial",
    "Verif.Organize.C152_fault_violated",
    "Verif.Organize.C152_azimuth_violated",
    "Verif.Organize.C152_stratigraphic_unit_violated",
    "Verif.Organize.C152_thickness_violated"
   ],
   "note": "For faults the comparison is to a tolerance, so that it is neither transitive (C152_fault_violated) nor right for azimuths on either side of north (C152_azimuth_violated); for stratigraphic units a missing deposition mode agrees with any (C152_stratigraphic_unit_violated) and thicknesses are left out (as a comment in the code says). Generic interpretations have no working test (C151_generic_violated)."
  },
  {
   "property": "C153",
   "status": "partial",
   "theorems": [
    "Verif.Organize.C153_feature",
    "Verif.Organize.C153_horizon",
    "Verif.Organize.C153_geobody_boundary",
    "Verif.Organize.C153_earth_model",
    "Verif.Organize.C153_boundary_interpretation",
    "Verif.Organize.C153_geobody_partial",
    "Verif.Organize.C153_geobody_violated",
    "Verif.Organize.C153_generic",
    "Verif.Organize.C153_wellbore",
    "Verif.Organize.C153_fault_partial",
    "Verif.Organize.C153_fault_violated",
    "Verif.Organize.C153_geologic_unit",
    "Verif.Organize.C153_stratigraphic_unit",
    "Verif.Organize.C153_fault_default",
    "Verif.Organize.C153_composition_held",
    "Verif.Organize.C153_composition_written",
    "Verif.Organize.C153_thickness_units"
   ],
   "note": "Texts are not blank and have no white space at their ends. The mean dip of a fault comes back as its mean azimuth (C153_fault_violated); the domain of a geobody is not read (C153_geobody_violated). What else changes is in the statements: only a pair of times of both ends is kept, as texts, empty lists come back as missing, a unit of thickness is only kept with a thickness."
  },
  {
   "property": "C154",
   "status": "partial",
   "theorems": [
    "Verif.Organize.C154_units",
    "Verif.Organize.C154_units_accepted",
    "Verif.Organize.C154_contacts",
    "Verif.Organize.C154_contacts_refused",
    "Verif.Organize.C154_contacts_accepted",
    "Verif.Organize.C154_add_ranks",
    "Verif.Organize.C154_contact_checked",
    "Verif.Organize.C154_rank_stored",
    "Verif.Organize.C154_column_stored",
    "Verif.Organize.C154_rank_reuse_violated",
    "Verif.Organize.C154_column_equivalent",
    "Verif.Organize.C154_column_reuse"
   ],
   "note": "Ranks have no test for equivalence and are added again every time (C154_rank_reuse_violated). Numbers of units in a rank are distinct. Titles of columns are not compared."
  },
  {
   "property": "C155",
   "status": "proved",
   "theorems": [
    "Verif.Frame.C155_interval_for_md",
    "Verif.Frame.C155_found_again"
   ],
   "note": "Exact numbers. A depth at an inner node is in the interval above it, at fraction one."
  },
  {
   "property": "C156",
   "status": "proved",
   "theorems": [
    "Verif.Frame.C156_cell",
    "Verif.Frame.C156_well",
    "Verif.Frame.C156_cell_fractions",
    "Verif.Frame.C156_interval_fractions"
   ],
   "note": "Exact numbers. An interval which ends exactly where a cell begins is also listed, with fractions zero, unless it is the last; this is part of the statement."
  },
  {
   "property": "C157",
   "status": "partial",
   "theorems": [
    "Verif.Frame.C157_length",
    "Verif.Frame.C157_active_partial",
    "Verif.Frame.C157_active_violated",
    "Verif.Frame.C157_dominant",
    "Verif.Frame.C157_kh",
    "Verif.Frame.C157_kh_conserved",
    "Verif.Frame.C157_skin_partial",
    "Verif.Frame.C157_skin_violated",
    "Verif.Frame.C157_radius_partial",
    "Verif.Frame.C157_radius_violated"
   ],
   "note": "Flags, radius and skin also regard an interval which ends exactly where the cell begins: C157_active_violated, C157_radius_violated, C157_skin_violated. Exact numbers. The reading of frame properties and the writing of blocked well properties are not modelled here."
  },
  {
   "property": "C158",
   "status": "partial",
   "theorems": [
    "Verif.ArrayFile.C158_ints",
    "Verif.ArrayFile.C158_bools",
    "Verif.ArrayFile.C158_reals",
    "Verif.ArrayFile.C158_reals_exact",
    "Verif.ArrayFile.C158_among",
    "Verif.ArrayFile.C158_headers_violated"
   ],
   "note": "Comments at the head are not passed over with data_free_of_comments unless the comment mark is given (C158_headers_violated). Floating point numbers are exact, and only plain decimals are read. What numpy does with a text which is not a number is an error."
  },
  {
   "property": "C159",
   "status": "partial",
   "theorems": [
    "Verif.ArrayFile.C159_too_few",
    "Verif.ArrayFile.C159_too_many_partial",
    "Verif.ArrayFile.C159_too_many_violated",
    "Verif.ArrayFile.C159_comments"
   ],
   "note": "Proved for too few, and for too many with data_free_of_comments. Otherwise too many are accepted, whatever the numbers (C159_too_many_violated): the test for too much data comes after the whole file has been read."
  },
  {
   "property": "C160",
   "status": "partial",
   "theorems": [
    "Verif.ArrayFile.C160_as_text",
    "Verif.ArrayFile.C160_keyword_violated",
    "Verif.ArrayFile.C160_bools_partial",
    "Verif.ArrayFile.C160_bools_violated",
    "Verif.ArrayFile.C160_bytes"
   ],
   "note": "Proved for loads with the same arguments. With two keywords in one file the copy of the first is given for the second (C160_keyword_violated). The binary file which write_array_to_ascii_file makes for booleans from an array of integers is read wrongly (C160_bools_violated; right for one byte each: C160_bools_partial). Times of files are numbers set by the clock; files set to earlier times are not covered."
  },
  {
   "property": "C161",
   "status": "partial",
   "theorems": [
    "Verif.RegGrid.C161_create",
    "Verif.RegGrid.C161_calls",
    "Verif.RegGrid.C161_shared",
    "Verif.RegGrid.C161_slices_partial",
    "Verif.RegGrid.C161_slices_violated"
   ],
   "note": "slice_points leaves out the origin of the grid (C161_slices_violated). Arrays are functions of their indices, numbers exact. make_regular_points_cached called by hand without the origin is not covered."
  },
  {
   "property": "C162",
   "status": "proved",
   "theorems": [
    "Verif.RegGrid.C162_centre",
    "Verif.RegGrid.C162_columns"
   ],
   "note": "Numbers are exact."
  },
  {
   "property": "C163",
   "status": "partial",
   "theorems": [
    "Verif.RegGrid.C163_box_partial",
    "Verif.RegGrid.C163_box_violated"
   ],
   "note": "Holds where the origin is nought; for any other origin it does not (C163_box_violated)."
  },
  {
   "property": "C164",
   "status": "partial",
   "theorems": [
    "Verif.RegGrid.C164_find_partial",
    "Verif.RegGrid.C164_find_violated"
   ],
   "note": "Holds where the origin is nought; with any other origin in x some point of the grid is not found (C164_find_violated). Points on a side belong to the column which starts there. Local coordinates only."
  },
  {
   "property": "C165",
   "status": "partial",
   "theorems": [
    "Verif.RegGrid.C165_lattice",
    "Verif.RegGrid.C165_unaligned",
    "Verif.RegGrid.C165_zero_violated",
    "Verif.RegGrid.C165_accepted",
    "Verif.RegGrid.C165_lengths_partial",
    "Verif.RegGrid.C165_rotated_violated"
   ],
   "note": "A grid with a step of nought is stored but cannot be loaded (C165_zero_violated). Without a lattice, only lengths are stored: a grid which is not aligned comes back aligned, without an error (C165_rotated_violated), and signs are lost (C165_lengths_partial says just when it comes back). Numbers are written exactly."
  },
  {
   "property": "C166",
   "status": "partial",
   "theorems": [
    "Verif.RegGrid.C166_stored_partial",
    "Verif.RegGrid.C166_new_violated",
    "Verif.RegGrid.C166_irregular_partial",
    "Verif.RegGrid.C166_no_crs_violated",
    "Verif.RegGrid.C166_rotated_violated"
   ],
   "note": "Holds after storing and loading if the crs is not rotated, and for grids stored as irregular with a crs given. It fails before storing (C166_new_violated: the origin counts twice), in a rotated crs (C166_rotated_violated) and for irregular grids in a model without a crs (C166_no_crs_violated)."
  },
  {
   "property": "C167",
   "status": "partial",
   "theorems": [
    "Verif.RegGrid.C167_first_layer_partial",
    "Verif.RegGrid.C167_thickness_violated"
   ],
   "note": "The first layer holds; the step for K has the thickness in x and y as well (C167_thickness_violated), so that such a grid is never aligned and cannot be stored as a lattice."
  },
  {
   "property": "C168",
   "status": "partial",
   "theorems": [
    "Verif.RegGrid.C168_volume_partial",
    "Verif.RegGrid.C168_aligned",
    "Verif.RegGrid.C168_skew_violated"
   ],
   "note": "Holds for steps at right angles, which the documentation assumes; not otherwise (C168_skew_violated). The choice of the conversion factor is not modelled here."
  },
  {
   "property": "C169",
   "status": "proved",
   "theorems": [
    "Verif.Mesh.C169_points",
    "Verif.Mesh.C169_accepted"
   ],
   "note": "Numbers are exact; arrays are functions of their indices. A missing crs is noticed first in the model."
  },
  {
   "property": "C170",
   "status": "partial",
   "theorems": [
    "Verif.Mesh.C170_stored",
    "Verif.Mesh.C170_history",
    "Verif.Mesh.C170_refused",
    "Verif.Mesh.C170_xy_violated"
   ],
   "note": "Fails for explicit meshes stored with use_xy_only: they are loaded with two coordinates per point, and no mesh with z values can be based on them (C170_xy_violated). Xml is a record of what is read from it; chains of references are bounded by an argument that can be as large as wished. Interpretations, titles and metadata are not modelled; nor are relationships (the code makes none to the supporting mesh, since ref_root stays None)."
  },
  {
   "property": "C171",
   "status": "proved",
   "theorems": [
    "Verif.Mesh.C171_columns"
   ],
   "note": "For grids as they are loaded, with their origin at nought (see C165). The choice of the crs by the unit of the property is not modelled."
  },
  {
   "property": "C172",
   "status": "partial",
   "theorems": [
    "Verif.Mesh.C172_fields",
    "Verif.Mesh.C172_zmap",
    "Verif.Mesh.C172_rms",
    "Verif.Mesh.C172_long",
    "Verif.Mesh.C172_short_violated",
    "Verif.Mesh.C172_unmarked",
    "Verif.Mesh.C172_endless_violated"
   ],
   "note": "Files with values missing are read without an error, with noughts instead (C172_short_violated); zmap files which break off in the header are read for ever (C172_endless_violated). The reading of numbers is a parameter. The rotation in RMS headers and the number of values per line are ignored by the code."
  },
  {
   "property": "C173",
   "status": "partial",
   "theorems": [
    "Verif.Mesh.C173_file",
    "Verif.Mesh.C173_regular_violated",
    "Verif.Mesh.C173_reference_violated"
   ],
   "note": "Holds for explicit and reg&z. A regular mesh shows the z values of the file until it is stored and nought after loading (C173_regular_violated); ref&z always fails (C173_reference_violated)."
  },
  {
   "property": "C174",
   "status": "partial",
   "theorems": [
    "Verif.Marker.C174_stored",
    "Verif.Marker.C174_refused",
    "Verif.Marker.C174_count_violated",
    "Verif.Marker.C174_find",
    "Verif.Marker.C174_at",
    "Verif.Marker.C174_new",
    "Verif.Marker.C174_kind",
    "Verif.Marker.C174_find_missing"
   ],
   "note": "A frame with a number of depths other than of markers is stored and then cannot be loaded (C174_count_violated). Xml is the tree the functions read; depths are exact numbers."
  },
  {
   "property": "C175",
   "status": "partial",
   "theorems": [
    "Verif.Marker.C175_import",
    "Verif.Marker.C175_same",
    "Verif.Marker.C175_depths_violated",
    "Verif.Marker.C175_geobody_violated",
    "Verif.Marker.C175_not_created"
   ],
   "note": "Holds for horizons and faults with depths in column MD. The name given for the depth column is checked but not used (C175_depths_violated); a geobody which is not in the model is never created (C175_geobody_violated). Letter case is that of ASCII."
  },
  {
   "property": "C176",
   "status": "partial",
   "theorems": [
    "Verif.Marker.C176_round_trip_partial",
    "Verif.Marker.C176_blank_violated",
    "Verif.Marker.C176_fluid_violated"
   ],
   "note": "Depths, kinds, titles are kept, and interpretations of horizon and fault markers whose title no other has (C176_round_trip_partial). A horizon marker without an interpretation is given the only one there is (C176_blank_violated); the interpretation of a marker of a fluid kind is lost (C176_fluid_violated)."
  },
  {
   "property": "C177",
   "status": "partial",
   "theorems": [
    "Verif.Marker.C177_frame",
    "Verif.Marker.C177_frame_short",
    "Verif.Marker.C177_frame_refused",
    "Verif.Marker.C177_datum",
    "Verif.Marker.C177_datum_refused",
    "Verif.Marker.C177_equivalent",
    "Verif.Marker.C177_equivalent_violated"
   ],
   "note": "Equivalence of datums is not symmetric (C177_equivalent_violated), the tolerance being a fraction of the second only. Related interpretations of frames are parts already."
  },
  {
   "property": "C178",
   "status": "proved",
   "theorems": [
    "Verif.Stencil.C178_adjacent",
    "Verif.Stencil.C178_disc",
    "Verif.Stencil.C178_normalized",
    "Verif.Stencil.C178_plain",
    "Verif.Stencil.C178_refused",
    "Verif.Stencil.C178_patterns"
   ],
   "note": "Values are exact numbers. The gaussian patterns are not modelled; they are patterns as any other."
  },
  {
   "property": "C179",
   "status": "partial",
   "theorems": [
    "Verif.Stencil.C179_convolution",
    "Verif.Stencil.C179_title_violated"
   ],
   "note": "The title is not inherited as documented (C179_title_violated). The crs is that of the mesh."
  },
  {
   "property": "C180",
   "status": "proved",
   "theorems": [
    "Verif.Stencil.C180_mean",
    "Verif.Stencil.C180_bounds",
    "Verif.Stencil.C180_defined",
    "Verif.Stencil.C180_plane"
   ],
   "note": "Values are exact numbers, NaN is the absence of a value."
  },
  {
   "property": "C181",
   "status": "proved",
   "theorems": [
    "Verif.Wellspec.C181_wells",
    "Verif.Wellspec.C181_refused"
   ],
   "note": "A place is the number of lines before it. Parsing of dates is a parameter."
  },
  {
   "property": "C182",
   "status": "partial",
   "theorems": [
    "Verif.Wellspec.C182_dates_partial",
    "Verif.Wellspec.C182_first_partial",
    "Verif.Wellspec.C182_once_partial",
    "Verif.Wellspec.C182_carry_violated",
    "Verif.Wellspec.C182_date_list"
   ],
   "note": "True for tables after any TIME line, for the first well, and for files where no well comes twice. Violated otherwise: the current date is not reset between wells, so that a well with a table before all dates is given the last date of the well before (C182_carry_violated)."
  },
  {
   "property": "C183",
   "status": "partial",
   "theorems": [
    "Verif.Wellspec.C183_table_partial",
    "Verif.Wellspec.C183_letter_violated"
   ],
   "note": "Conversion of values (wellspec_dtype) is a parameter. Violated for comments marked with the letter C after a blank line, which are read as rows (C183_letter_violated)."
  },
  {
   "property": "C184",
   "status": "partial",
   "theorems": [
    "Verif.Wellspec.C184_none",
    "Verif.Wellspec.C184_table_partial",
    "Verif.Wellspec.C184_key_violated",
    "Verif.Wellspec.C184_status_violated",
    "Verif.Wellspec.C184_wells",
    "Verif.Wellspec.C184_unknown",
    "Verif.Wellspec.C184_columns",
    "Verif.Wellspec.C184_all_tables"
   ],
   "note": "Violated: with keep_duplicate_cells False (the default in the code, though documented as True) a selection of columns without IW, JW and L in capitals fails with a KeyError (C184_key_violated); a status of on in small letters is taken for off (C184_status_violated). Numbers of integer columns are exact; overflow is not modelled."
  },
  {
   "property": "C185",
   "status": "partial",
   "theorems": [
    "Verif.Multi.C185_schedule",
    "Verif.Multi.C185_success",
    "Verif.Multi.C185_required",
    "Verif.Multi.C185_recombined",
    "Verif.Multi.C185_transient",
    "Verif.Multi.C185_never",
    "Verif.Multi.C185_no_list_violated",
    "Verif.Multi.C185_kinds",
    "Verif.Multi.C185_kinds_named"
   ],
   "note": "A worker is a function of its number and arguments; an attempt to copy which is blocked changes nothing. Copying an object is a parameter. Violated for workers which return no list of uuids: the fallback to all objects cannot be reached (C185_no_list_violated)."
  },
  {
   "property": "C186",
   "status": "partial",
   "theorems": [
    "Verif.Multi.C186_atomic",
    "Verif.Multi.C186_kept_partial",
    "Verif.Multi.C186_lost_violated",
    "Verif.Multi.C186_left_violated",
    "Verif.Multi.C186_end"
   ],
   "note": "Writing the epc file and removing the directory are single actions. Violated: the directory is removed before the epc file is written (C186_lost_violated, for every run with success), and it is left behind after failures (C186_left_violated)."
  },
  {
   "property": "C187",
   "status": "partial",
   "theorems": [
    "Verif.Defined.C187_cells",
    "Verif.Defined.C187_points",
    "Verif.Defined.C187_pillars_partial",
    "Verif.Defined.C187_nullify_violated",
    "Verif.Defined.C187_inactive",
    "Verif.Defined.C187_active_violated",
    "Verif.Defined.C187_split_violated",
    "Verif.Defined.C187_dots_violated",
    "Verif.Defined.C187_dots_partial",
    "Verif.Defined.C187_dots_gaps"
   ],
   "note": "Violated: with nullify_partial_pillars the array of pillars is not brought up to date (C187_nullify_violated) and cells which lose their geometry stay active (C187_active_violated); missing points of split pillars do not count (C187_split_violated); with treat_dots_as_nan the points on top of a dot stay when the layer above has no dots (C187_dots_violated), since a later assignment overwrites the mask. The limit of z used for completion is a parameter."
  },
  {
   "property": "C188",
   "status": "proved",
   "theorems": [
    "Verif.Defined.C188_completed",
    "Verif.Defined.C188_succeeds"
   ],
   "note": "Numbers are exact. Each pillar is completed on its own, so the loop over pillars is one function of the pillar."
  },
  {
   "property": "C189",
   "status": "partial",
   "theorems": [
    "Verif.Defined.C189_all_defined",
    "Verif.Defined.C189_kept",
    "Verif.Defined.C189_inactive",
    "Verif.Defined.C189_last_row_violated",
    "Verif.Defined.C189_last_column_violated",
    "Verif.Defined.C189_only_last_row_violated",
    "Verif.Defined.C189_step_violated"
   ],
   "note": "The part about missing rows and columns at the edge is violated, for every grid: a missing last row or column is placed at x = 0 and y = 0 (C189_last_row_violated, C189_last_column_violated), because the loops stop one short; if only the last row is there the call fails (C189_only_last_row_violated); a missing first row is moved by the same amount along x as along y (C189_step_violated), because the mean is taken over both axes together."
  },
  {
   "property": "C190",
   "status": "partial",
   "theorems": [
    "Verif.Defined.C190_cells",
    "Verif.Defined.C190_pillars_partial",
    "Verif.Defined.C190_uncached_violated",
    "Verif.Defined.C190_nothing_stored_violated",
    "Verif.Defined.C190_missing_point_violated"
   ],
   "note": "Violated for geometry_defined_for_all_pillars without caching, which always answers yes and makes every later answer yes (C190_uncached_violated); with nothing stored, the question about all pillars has no answer (C190_nothing_stored_violated), and a question about one cell of a grid with a missing point fails (C190_missing_point_violated)."
  },
  {
   "property": "C191",
   "status": "proved",
   "theorems": [
    "Verif.RelPerm.C191_accepted",
    "Verif.RelPerm.C191_kept",
    "Verif.RelPerm.C191_phases",
    "Verif.RelPerm.C191_other_phases",
    "Verif.RelPerm.C191_any_case"
   ],
   "note": "Proved for the code which makes an object from a data frame. Numbers are exact; the DataFrame base class is only represented by the frame it keeps."
  },
  {
   "property": "C192",
   "status": "partial",
   "theorems": [
    "Verif.RelPerm.C192_node",
    "Verif.RelPerm.C192_between",
    "Verif.RelPerm.C192_outside",
    "Verif.RelPerm.C192_range",
    "Verif.RelPerm.C192_monotone",
    "Verif.RelPerm.C192_missing_violated",
    "Verif.RelPerm.C192_case_violated"
   ],
   "note": "Violated in the last two parts: a column name in another case passes the check and then gives a KeyError (C192_case_violated), and rows without capillary pressure are never left out, so next to one the result is NaN (C192_missing_violated)."
  },
  {
   "property": "C193",
   "status": "partial",
   "theorems": [
    "Verif.RelPerm.C193_round_trip_partial",
    "Verif.RelPerm.C193_appended",
    "Verif.RelPerm.C193_oil_violated",
    "Verif.RelPerm.C193_all_missing_violated",
    "Verif.RelPerm.C193_low_salinity_violated"
   ],
   "note": "Partial: C193_round_trip_partial is for tables by saturation of water or gas with some capillary pressure if there is a column for it, and for numbers which text keeps. Violated otherwise: a table by saturation of oil is written but cannot be read (C193_oil_violated), as is one with all capillary pressures missing (C193_all_missing_violated); a water and oil table which was stored is written with the keyword for low salinity even if it is not (C193_low_salinity_violated), since the flag is stored as the text false."
  },
  {
   "property": "C194",
   "status": "partial",
   "theorems": [
    "Verif.DataTable.C194_history_partial",
    "Verif.DataTable.C194_other_realization",
    "Verif.DataTable.C194_kept",
    "Verif.DataTable.C194_lookup_title_violated",
    "Verif.DataTable.C194_several_tables"
   ],
   "note": "Partial: C194_history_partial is for frames which are given without tables of names or units of their own. Violated with a table of names which has another title: the frame is written but cannot be loaded (C194_lookup_title_violated). Values are of any type; files and the coordinate reference system are left out."
  },
  {
   "property": "C195",
   "status": "partial",
   "theorems": [
    "Verif.DataTable.C195_not_square_violated",
    "Verif.DataTable.C195_new_realization_violated",
    "Verif.DataTable.C195_column_unit_violated",
    "Verif.DataTable.C195_lookup_uuid_violated"
   ],
   "note": "Violated throughout: with another number of columns than rows a new realization is refused, since the number of columns is compared with that of rows (C195_not_square_violated); one which is accepted is never written, since there is a mesh already (C195_new_realization_violated); column_uom reads an attribute which is not set (C195_column_unit_violated); the uuid of the table of names is noted before an equal table takes its place (C195_lookup_uuid_violated)."
  },
  {
   "property": "C196",
   "status": "proved",
   "theorems": [
    "Verif.DataTable.C196_time_tables",
    "Verif.DataTable.C196_listed",
    "Verif.DataTable.C196_by_title"
   ],
   "note": "Proved; the lookup by related uuid is left out."
  },
  {
   "property": "C197",
   "status": "proved",
   "theorems": [
    "Verif.FaultTable.C197_read"
   ],
   "note": "Proved. Which words are numbers, and their values, are parameters; rows with another number of values are refused in the model, as with numpy from 1.24."
  },
  {
   "property": "C198",
   "status": "partial",
   "theorems": [
    "Verif.FaultTable.C198_text_read",
    "Verif.FaultTable.C198_written_faces",
    "Verif.FaultTable.C198_written_multipliers_partial",
    "Verif.FaultTable.C198_mark_violated"
   ],
   "note": "Partial: names are single words (write_simulator takes the first word of a name, in upper case). C198_written_faces is for names without exclamation mark, C198_written_multipliers_partial for faults with one multiplier each (for others see the violations of C54). Violated with an exclamation mark in a name (C198_mark_violated): what follows is taken for a comment, and a file with a name which begins with one cannot be read."
  },
  {
   "property": "C199",
   "status": "partial",
   "theorems": [
    "Verif.FindFaults.C199_zero",
    "Verif.FindFaults.C199_same_fault",
    "Verif.FindFaults.C199_listed_partial",
    "Verif.FindFaults.C199_all_split_violated"
   ],
   "note": "Partial: the lists of faces are proved where some face is not split. Violated where every face is split (C199_all_split_violated): the first number is always discarded as if it were zero, so one fault is missing from fault_dict; for two columns with a fault between, no fault is found."
  },
  {
   "property": "C200",
   "status": "partial",
   "theorems": [
    "Verif.FindFaults.C200_throw_j",
    "Verif.FindFaults.C200_throw_i_violated",
    "Verif.FindFaults.C200_opposite",
    "Verif.FindFaults.C200_uniform",
    "Verif.FindFaults.C200_orders",
    "Verif.FindFaults.C200_modes_partial",
    "Verif.FindFaults.C200_minimum_violated"
   ],
   "note": "Partial: simple_z only, depths without NaN, exact numbers. fault_throws is proved for J faces; violated for I faces (C200_throw_i_violated): the slice -1: in place of :-1 subtracts depths of the last column from those of every other one. Modes minimum and maximum are proved for separations of one sign; violated for others (C200_minimum_violated): the least absolute separation is not found, not even where a separation is zero."
  },
  {
   "property": "C201",
   "status": "partial",
   "theorems": [
    "Verif.Aps.C201_first",
    "Verif.Aps.C201_items_partial",
    "Verif.Aps.C201_exception",
    "Verif.Aps.C201_repeated_violated",
    "Verif.Aps.C201_reserved_violated"
   ],
   "note": "Partial: items are proved for distinct keys. Violated for duplicates (C201_repeated_violated): items() and len() go over all properties, so the first one with a key comes again for each hidden one. Violated for a key which is the name of an attribute or method of the collection (C201_reserved_violated): the property is hidden, items() gives the method in its place, and a KeyError is raised in mode exception without any duplicate."
  },
  {
   "property": "C202",
   "status": "partial",
   "theorems": [
    "Verif.Aps.C202_time_realization",
    "Verif.Aps.C202_no_blank",
    "Verif.Aps.C202_collision_violated"
   ],
   "note": "Partial: proved for properties which differ in time index and realization only. Violated for others (C202_collision_violated): a title which ends like a time index, an underscore in place of a blank, or a facet named as an indexable element give the same key."
  },
  {
   "property": "C203",
   "status": "partial",
   "theorems": [
    "Verif.GridCache.C203_uuid",
    "Verif.GridCache.C203_shared",
    "Verif.GridCache.C203_main",
    "Verif.GridCache.C203_main_first",
    "Verif.GridCache.C203_title_partial",
    "Verif.GridCache.C203_root_title_violated",
    "Verif.GridCache.C203_one_object_partial",
    "Verif.GridCache.C203_hidden_violated"
   ],
   "note": "Partial: titles other than ROOT; one object for each grid if objects are added with check_for_duplicates. Violated for the title ROOT (C203_root_title_violated): in a model without a grid of that title, the only grid is returned, whatever its title. Violated without check_for_duplicates (C203_hidden_violated): an object added for a grid already in the list is never returned. Grids removed from a model, and reading of properties, are not modelled."
  },
  {
   "property": "C204",
   "status": "partial",
   "theorems": [
    "Verif.PropKind.C204_kept",
    "Verif.PropKind.C204_created_partial",
    "Verif.PropKind.C204_reused",
    "Verif.PropKind.C204_unit_violated",
    "Verif.PropKind.C204_any_unit_violated",
    "Verif.PropKind.C204_zone",
    "Verif.PropKind.C204_zone_violated"
   ],
   "note": "Partial: data are the same for objects with a unit. Violated without one: read again it has the unit Euc (C204_unit_violated), and a property kind of the model with any unit is taken for it (C204_any_unit_violated). Violated for zones where the kind titled zone of the model has other data (C204_zone_violated): parts are looked for by a type which property kinds do not have, so a second one with the title is added. Kinds which are themselves children of local kinds are refused by the code and not modelled."
  },
  {
   "property": "C205",
   "status": "partial",
   "theorems": [
    "Verif.Ensemble.C205_from_cases",
    "Verif.Ensemble.C205_all_gathered_partial",
    "Verif.Ensemble.C205_same_uuid_violated",
    "Verif.Ensemble.C205_lookup",
    "Verif.Ensemble.C205_shared_objects",
    "Verif.Ensemble.C205_placed",
    "Verif.Ensemble.C205_gathers",
    "Verif.Ensemble.C205_unmatched",
    "Verif.Ensemble.C205_titles_violated",
    "Verif.Ensemble.C205_own_grids",
    "Verif.Ensemble.C205_separate",
    "Verif.Ensemble.C205_separate_gathers",
    "Verif.Ensemble.C205_apart_kept",
    "Verif.Ensemble.C205_apart",
    "Verif.Ensemble.C205_apart_series_violated"
   ],
   "note": "Partial: every property is gathered where all have different uuids. Violated where a property of a later case has the uuid of one of the first (C205_same_uuid_violated): it is passed over and its realization is missing. Violated where two grids of the first case have the same extent (C205_titles_violated): titles are compared in a loop over an integer, so any later case with a grid raises an exception. Violated without consolidation (C205_apart_series_violated): titles of time series must match all the same unless shared_time_series is off. Consolidating with shared_time_series off, parts of other classes and hdf5 files are not modelled."
  },
  {
   "property": "C206",
   "status": "partial",
   "theorems": [
    "Verif.GeoTime.C206_from_years",
    "Verif.GeoTime.C206_load",
    "Verif.GeoTime.C206_round_trip",
    "Verif.GeoTime.C206_foreign",
    "Verif.GeoTime.C206_timestamp",
    "Verif.GeoTime.C206_index",
    "Verif.GeoTime.C206_millions_partial",
    "Verif.GeoTime.C206_positive_violated",
    "Verif.GeoTime.C206_index_string_violated",
    "Verif.GeoTime.C206_equivalent",
    "Verif.GeoTime.C206_selected_partial",
    "Verif.GeoTime.C206_selected_violated",
    "Verif.GeoTime.C206_merge_violated"
   ],
   "note": "Partial: selection by indices from the start, and string forms of whole millions of years. Violated: string forms are never positive (C206_positive_violated); two times in the same million years have one string form, so the index by string is wrong (C206_index_string_violated); selecting by negative indices gives times out of order (C206_selected_violated); merging geologic series always raises an exception (C206_merge_violated). Formatting of numbers as characters is not modelled."
  },
  {
   "property": "C207",
   "status": "partial",
   "theorems": [
    "Verif.GridKind.C207_foreign_ijk",
    "Verif.GridKind.C207_foreign_unstructured",
    "Verif.GridKind.C207_round_trip_partial",
    "Verif.GridKind.C207_grid",
    "Verif.GridKind.C207_regular",
    "Verif.GridKind.C207_no_geometry_violated",
    "Verif.GridKind.C207_vertical_violated",
    "Verif.GridKind.C207_general_violated",
    "Verif.GridKind.C207_no_lengths_violated",
    "Verif.GridKind.C207_irregular_violated"
   ],
   "note": "Partial: grids written with geometry, but for those named here. Violated: grids written without geometry cannot be read, and a Grid is then taken for a RegularGrid (C207_no_geometry_violated); nothing is ever read as a VerticalPrismGrid (C207_vertical_violated); a general unstructured grid of one cell shape is read in the class for the shape (C207_general_violated); a RegularGrid with neither lattice nor cell lengths, or made as irregular and written without geometry, cannot be read (C207_no_lengths_violated, C207_irregular_violated). Checks of arrays and of alignment of lattices are not modelled."
  }
 ]
}