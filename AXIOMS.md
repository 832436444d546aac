# Axioms of each theorem

Generated with `#print axioms` over every theorem of MANIFEST.json. Only `propext`, `Classical.choice` and `Quot.sound` occur.

## C01

* `Verif.Box.C01_box_text_round_trip`: propext, Quot.sound
* `Verif.Box.C01_parsed_box_sound`: propext, Quot.sound

## C02

* `Verif.Box.C02_cell_in_box_iff`: propext, Classical.choice, Quot.sound
* `Verif.Box.C02_local_exists_iff`: propext, Classical.choice, Quot.sound
* `Verif.Box.C02_parent_local_round_trip`: propext, Classical.choice, Quot.sound
* `Verif.Box.C02_local_parent_round_trip`: propext, Classical.choice, Quot.sound
* `Verif.Box.C02_volume_counts_cells`: propext, Classical.choice, Quot.sound
* `Verif.Box.C02_central_cell_in_box`: propext, Classical.choice, Quot.sound
* `Verif.Box.C02_valid_box_iff`: propext, Classical.choice, Quot.sound
* `Verif.Box.C02_single_and_full`: propext, Classical.choice, Quot.sound

## C03

* `Verif.Box.C03_overlap_iff_common_cell`: propext, Classical.choice, Quot.sound
* `Verif.Box.C03_union_least`: propext, Classical.choice, Quot.sound
* `Verif.Box.C03_union_none`: none

## C04

* `Verif.Box.C04_trim_offered_iff_overlap`: propext, Classical.choice, Quot.sound
* `Verif.Box.C04_trim_covers_shared`: propext, Classical.choice, Quot.sound
* `Verif.Box.C04_remainder_is_box_violated`: propext, Classical.choice, Quot.sound
* `Verif.Box.C04_remainder_nonempty_violated`: propext, Classical.choice, Quot.sound
* `Verif.Box.C04_trim_remainder_partial`: propext, Classical.choice, Quot.sound
* `Verif.Box.C04_trim_by_box_sound`: propext, Classical.choice, Quot.sound

## C05

* `Verif.Box.C05_trim_to_mask_minimal`: propext, Classical.choice, Quot.sound
* `Verif.Box.C05_empty_mask_refused`: propext, Classical.choice, Quot.sound

## C06

* `Verif.FineCoarse.C06_each_fine_cell_in_one_box`: propext, Classical.choice, Quot.sound
* `Verif.FineCoarse.C06_lookup_iff_in_box`: propext, Classical.choice, Quot.sound
* `Verif.FineCoarse.C06_boxes_within_fine_grid`: propext, Classical.choice, Quot.sound
* `Verif.FineCoarse.C06_natural_column_index`: propext, Classical.choice, Quot.sound
* `Verif.FineCoarse.C06_natural_pillar_index`: propext, Classical.choice, Quot.sound
* `Verif.FineCoarse.C06_ratios_consistent_after_any_history`: propext, Classical.choice, Quot.sound

## C07

* `Verif.FineCoarse.C07_stale_mapping_violated`: propext, Classical.choice, Quot.sound
* `Verif.FineCoarse.C07_early_lookup_violated`: propext, Classical.choice, Quot.sound
* `Verif.FineCoarse.C07_follows_ratios_set_before_first_lookup_partial`: propext, Classical.choice, Quot.sound

## C08

* `Verif.Factors.C08_prime_factors`: propext, Classical.choice, Quot.sound
* `Verif.Factors.C08_combinatorial_products`: propext, Classical.choice, Quot.sound
* `Verif.Factors.C08_all_factors`: propext, Classical.choice, Quot.sound
* `Verif.Factors.C08_remove_subset`: propext, Classical.choice, Quot.sound

## C09

* `Verif.Xml.C09_part_name_gives_uuid`: propext, Classical.choice, Quot.sound
* `Verif.Xml.C09_part_names_distinct`: propext, Classical.choice, Quot.sound
* `Verif.Xml.C09_rels_name_gives_uuid`: propext, Classical.choice, Quot.sound
* `Verif.Xml.C09_rels_name_identifies_part`: propext, Quot.sound

## C10

* `Verif.Xml.C10_text_round_trip_partial`: propext, Classical.choice, Quot.sound
* `Verif.Xml.C10_blank_text_violated`: propext
* `Verif.Xml.C10_carriage_return_violated`: propext
* `Verif.Xml.C10_blank_title`: propext, Quot.sound
* `Verif.Xml.C10_attribute_violated`: propext

## C11

* `Verif.Xml.C11_ordered_lookup`: propext, Classical.choice, Quot.sound
* `Verif.Xml.C11_found_is_found`: propext, Quot.sound

## C12

* `Verif.Catalogue.C12_found_is_filed`: propext, Classical.choice, Quot.sound
* `Verif.Catalogue.C12_listings_agree`: propext, Classical.choice, Quot.sound
* `Verif.Catalogue.C12_remove_leaves_others`: propext, Quot.sound
* `Verif.Catalogue.C12_removed_not_found`: propext, Quot.sound
* `Verif.Catalogue.C12_added_is_found`: propext, Quot.sound
* `Verif.Catalogue.C12_unrelated_removal_violated`: propext, Classical.choice, Quot.sound
* `Verif.Catalogue.C12_catalogue_consistent_partial`: propext, Classical.choice, Quot.sound

## C13

* `Verif.Catalogue.C13_mutual_partial`: propext, Quot.sound
* `Verif.Catalogue.C13_removed_not_named_partial`: propext, Quot.sound
* `Verif.Catalogue.C13_removal_succeeds_partial`: propext, Quot.sound
* `Verif.Catalogue.C13_one_strength_partial`: propext, Quot.sound
* `Verif.Catalogue.C13_one_sided_violated`: propext, Quot.sound
* `Verif.Catalogue.C13_two_strengths_violated`: propext, Quot.sound
* `Verif.Catalogue.C13_support_change_violated`: propext, Quot.sound

## C14

* `Verif.Query.C14_query_selects_partial`: propext, Classical.choice, Quot.sound
* `Verif.Query.C14_criteria_narrow_partial`: propext, Classical.choice, Quot.sound
* `Verif.Query.C14_empty_start_violated`: propext, Quot.sound
* `Verif.Query.C14_subdir_violated`: propext, Quot.sound
* `Verif.Query.C14_sorting_permutes`: propext, Quot.sound
* `Verif.Query.C14_single_part`: propext, Quot.sound
* `Verif.Query.C14_several_parts`: propext, Classical.choice, Quot.sound

## C15

* `Verif.Consolidation.C15_resolves_in_one_step_partial`: propext, Quot.sound
* `Verif.Consolidation.C15_equivalences_are_sound_partial`: propext, Quot.sound
* `Verif.Consolidation.C15_answer_is_resident_partial`: propext, Quot.sound
* `Verif.Consolidation.C15_ignoring_identical_violated`: propext, Classical.choice, Quot.sound
* `Verif.Consolidation.C15_forced_chain_violated`: none

## C16

* `Verif.Hdf5.C16_default_roundtrip_iff_partial`: propext, Classical.choice, Quot.sound
* `Verif.Hdf5.C16_default_storage_violated`: propext, Classical.choice, Quot.sound
* `Verif.Hdf5.C16_full_storage`: propext, Classical.choice, Quot.sound

## C17

* `Verif.Hdf5.C17_packed_roundtrip`: propext, Classical.choice, Quot.sound
* `Verif.Hdf5.C17_unpacked_taken_for_packed_violated`: none
* `Verif.Hdf5.C17_not_packed_reshaped`: propext, Quot.sound
* `Verif.Hdf5.C17_single_element_rows_violated`: none

## C18

* `Verif.Hdf5.C18_reshaped_element`: propext, Classical.choice, Quot.sound
* `Verif.Hdf5.C18_mismatched_tail_refused`: propext, Quot.sound

## C19

* `Verif.Lookup.C19_from_dict_partial`: propext, Quot.sound
* `Verif.Lookup.C19_reloaded_lookup_partial`: propext, Classical.choice, Quot.sound
* `Verif.Lookup.C19_duplicate_key_refused`: propext, Classical.choice, Quot.sound
* `Verif.Lookup.C19_reverse_lookup_partial`: propext, Quot.sound
* `Verif.Lookup.C19_set_string_violated`: propext, Quot.sound
* `Verif.Lookup.C19_set_string_inconsistent_violated`: propext
* `Verif.Lookup.C19_set_string_on_empty_violated`: propext
* `Verif.Lookup.C19_list_after_reload_violated`: propext
* `Verif.Lookup.C19_reverse_lookup_after_reload_violated`: propext
* `Verif.Lookup.C19_list_by_key`: propext, Classical.choice, Quot.sound

## C20

* `Verif.TimeSeries.C20_additions_keep_order`: propext, Classical.choice, Quot.sound
* `Verif.TimeSeries.C20_addition`: propext
* `Verif.TimeSeries.C20_extension_violated`: propext, Classical.choice, Quot.sound
* `Verif.TimeSeries.C20_history_partial`: propext, Classical.choice, Quot.sound
* `Verif.TimeSeries.C20_extension`: propext, Classical.choice, Quot.sound
* `Verif.TimeSeries.C20_negative_refused`: propext
* `Verif.TimeSeries.C20_not_later`: propext, Classical.choice, Quot.sound
* `Verif.TimeSeries.C20_not_earlier`: propext, Classical.choice, Quot.sound
* `Verif.TimeSeries.C20_not_later_in_time_partial`: propext, Classical.choice, Quot.sound
* `Verif.TimeSeries.C20_searches_in_time`: propext, Classical.choice, Quot.sound
* `Verif.TimeSeries.C20_searches_mixed_forms_violated`: propext, Classical.choice, Quot.sound
* `Verif.TimeSeries.C20_closest_partial`: propext, Classical.choice, Quot.sound
* `Verif.TimeSeries.C20_closest_violated`: propext, Classical.choice, Quot.sound
* `Verif.TimeSeries.C20_durations_add`: propext, Quot.sound
* `Verif.TimeSeries.C20_step_duration`: propext, Quot.sound

## C21

* `Verif.Crs.C21_inverse`: propext, Classical.choice, Quot.sound
* `Verif.Crs.C21_arrays`: propext, Classical.choice, Quot.sound
* `Verif.Crs.C21_convert_roundtrip`: propext, Classical.choice, Quot.sound
* `Verif.Crs.C21_convert_transitive`: propext, Classical.choice, Quot.sound
* `Verif.Crs.C21_convert_from`: propext, Classical.choice, Quot.sound

## C22

* `Verif.Crs.C22_switch_partial`: propext, Classical.choice, Quot.sound
* `Verif.Crs.C22_switch_violated`: propext, Classical.choice, Quot.sound
* `Verif.Crs.C22_roundtrip`: propext, Quot.sound
* `Verif.Crs.C22_by_way_of_easting_northing`: propext, Classical.choice, Quot.sound

## C23

* `Verif.Crs.C23_handedness`: propext, Classical.choice, Quot.sound
* `Verif.Crs.C23_tables_agree`: none

## C24

* `Verif.Volume.C24_volume_and_twist_partial`: propext, Classical.choice, Quot.sound
* `Verif.Volume.C24_volume_planar_faces_partial`: propext, Classical.choice, Quot.sound
* `Verif.Volume.C24_volume_bilinear_faces_violated`: propext, Classical.choice, Quot.sound
* `Verif.Volume.C24_centre_irrelevant`: propext, Classical.choice, Quot.sound
* `Verif.Volume.C24_translation`: propext, Classical.choice, Quot.sound
* `Verif.Volume.C24_parallelepiped`: propext, Classical.choice, Quot.sound
* `Verif.Volume.C24_arrays_agree`: propext, Classical.choice, Quot.sound
* `Verif.Volume.C24_arrays_agree_centres`: propext, Classical.choice, Quot.sound

## C25

* `Verif.GridFns.C25_resequence_undone`: propext, Quot.sound
* `Verif.GridFns.C25_values_only_moved`: propext, Classical.choice, Quot.sound
* `Verif.GridFns.C25_eight_mode_reads_blocks`: propext, Quot.sound
* `Verif.GridFns.C25_ring_to_rows`: propext

## C26

* `Verif.Pillars.C26_distance_to_marked`: propext, Classical.choice, Quot.sound
* `Verif.Pillars.C26_distance_to_split_partial`: propext, Classical.choice, Quot.sound
* `Verif.Pillars.C26_edge_face_missed_violated`: propext

## C27

* `Verif.Pillars.C27_query_symmetric`: propext, Classical.choice, Quot.sound
* `Verif.Pillars.C27_marked_iff`: propext, Classical.choice, Quot.sound
* `Verif.Pillars.C27_marked_iff_split_partial`: propext, Classical.choice, Quot.sound
* `Verif.Pillars.C27_edge_face_missed_violated`: propext

## C28

* `Verif.Pinchout.C28_column_sound`: propext, Quot.sound
* `Verif.Pinchout.C28_column_exact`: propext, Classical.choice, Quot.sound
* `Verif.Pinchout.C28_column_complete_partial`: propext, Classical.choice, Quot.sound
* `Verif.Pinchout.C28_successive_pinchouts_violated`: propext, Quot.sound
* `Verif.Pinchout.C28_grid_pairs`: propext, Quot.sound
* `Verif.Pinchout.C28_index_identifies_cell`: propext, Quot.sound

## C29

* `Verif.Units.C29_table_is_sound`: propext, Classical.choice, Quot.sound
* `Verif.Units.C29_recognised_units`: propext, Classical.choice, Quot.sound
* `Verif.Units.C29_roundtrip`: propext, Classical.choice, Quot.sound
* `Verif.Units.C29_transitive`: propext, Classical.choice, Quot.sound
* `Verif.Units.C29_transitive_in_place`: propext, Classical.choice, Quot.sound
* `Verif.Units.C29_refusal`: propext, Classical.choice, Quot.sound
* `Verif.Units.C29_order`: propext, Classical.choice, Quot.sound
* `Verif.Units.C29_in_place`: propext, Classical.choice, Quot.sound
* `Verif.Units.C29_transmissibility_components`: propext, Quot.sound
* `Verif.Units.C29_transmissibility_roundtrip`: propext, Classical.choice, Quot.sound
* `Verif.Units.C29_transmissibility_factor`: propext, Classical.choice, Quot.sound
* `Verif.Units.C29_transmissibility_resqpy`: propext, Classical.choice, Quot.sound

## C30

* `Verif.TriMesh.C30_weights`: propext, Classical.choice, Quot.sound
* `Verif.TriMesh.C30_inside`: propext, Classical.choice, Quot.sound
* `Verif.TriMesh.C30_found`: propext, Classical.choice, Quot.sound
* `Verif.TriMesh.C30_array_agrees`: propext, Classical.choice, Quot.sound
* `Verif.TriMesh.C30_nodes_agree`: propext, Classical.choice, Quot.sound
* `Verif.TriMesh.C30_numbering`: propext, Classical.choice, Quot.sound
* `Verif.TriMesh.C30_interpolated_plane`: propext, Classical.choice, Quot.sound
* `Verif.TriMesh.C30_interpolated_range`: propext, Classical.choice, Quot.sound

## C31

* `Verif.Pillars.C31_mapping_spec`: propext, Classical.choice, Quot.sound
* `Verif.Pillars.C31_foursome_agrees`: propext, Classical.choice, Quot.sound

## C32

* `Verif.Zones.C32_ranges`: propext, Classical.choice, Quot.sound
* `Verif.Zones.C32_success_partial`: propext, Classical.choice, Quot.sound
* `Verif.Zones.C32_inactive_layers_violated`: propext
* `Verif.Zones.C32_dominant`: propext, Classical.choice, Quot.sound

## C33

* `Verif.Keywords.C33_find_keyword`: propext, Classical.choice, Quot.sound
* `Verif.Keywords.C33_without_passing`: propext, Classical.choice, Quot.sound
* `Verif.Keywords.C33_with_copy`: propext, Classical.choice, Quot.sound
* `Verif.Keywords.C33_skip`: propext, Classical.choice, Quot.sound
* `Verif.Keywords.C33_specific_next`: propext, Classical.choice, Quot.sound
* `Verif.Keywords.C33_find_pair_partial`: propext, Classical.choice, Quot.sound
* `Verif.Keywords.C33_find_pair_violated`: propext
* `Verif.Keywords.C33_comment_partial`: propext, Classical.choice, Quot.sound
* `Verif.Keywords.C33_comment_violated`: propext

## C34

* `Verif.Gcs.C34_set_for_flag`: propext, Quot.sound
* `Verif.Gcs.C34_set_current`: propext, Quot.sound
* `Verif.Gcs.C34_transmissibility_partial`: propext, Quot.sound
* `Verif.Gcs.C34_stale_transmissibility_violated`: propext

## C35

* `Verif.Lines.C35_sublist_last`: propext, Quot.sound
* `Verif.Lines.C35_first_partial`: propext, Quot.sound
* `Verif.Lines.C35_neighbours_partial`: propext, Classical.choice, Quot.sound
* `Verif.Lines.C35_cover`: propext, Classical.choice, Quot.sound
* `Verif.Lines.C35_polygon_line`: propext, Quot.sound
* `Verif.Lines.C35_first_violated`: propext, Classical.choice, Quot.sound
* `Verif.Lines.C35_neighbours_violated`: propext, Classical.choice, Quot.sound

## C36

* `Verif.Polygon.C36_edges`: propext, Classical.choice, Quot.sound
* `Verif.Polygon.C36_crossing_number`: propext, Classical.choice, Quot.sound
* `Verif.Polygon.C36_any_start`: propext, Classical.choice, Quot.sound
* `Verif.Polygon.C36_either_direction`: propext, Classical.choice, Quot.sound
* `Verif.Polygon.C36_array_agrees`: propext, Quot.sound
* `Verif.Polygon.C36_winding_parity`: propext, Classical.choice, Quot.sound
* `Verif.Polygon.C36_repeated_vertex`: propext, Classical.choice, Quot.sound
* `Verif.Polygon.C36_cut`: propext, Classical.choice, Quot.sound
* `Verif.Polygon.C36_fan`: propext, Classical.choice, Quot.sound
* `Verif.Polygon.C36_triangle`: propext, Classical.choice, Quot.sound
* `Verif.Polygon.C36_outside_box`: propext, Classical.choice, Quot.sound
* `Verif.Polygon.C36_units`: propext, Classical.choice, Quot.sound

## C37

* `Verif.FineCoarse.C37_equal_proportions`: propext, Classical.choice, Quot.sound
* `Verif.FineCoarse.C37_set_proportions`: propext, Classical.choice, Quot.sound
* `Verif.FineCoarse.C37_interpolation`: propext, Classical.choice, Quot.sound
* `Verif.FineCoarse.C37_proportions_for_axis`: propext, Classical.choice, Quot.sound
* `Verif.FineCoarse.C37_stale_proportions_violated`: propext, Classical.choice, Quot.sound

## C38

* `Verif.FineCoarse.C38_tartan_linear`: propext, Classical.choice, Quot.sound
* `Verif.FineCoarse.C38_tartan_exponential`: propext, Classical.choice, Quot.sound
* `Verif.FineCoarse.C38_tartan_linear_default`: propext, Classical.choice, Quot.sound
* `Verif.FineCoarse.C38_tartan_exponential_default`: propext, Classical.choice, Quot.sound
* `Verif.FineCoarse.C38_tartan_accepted`: propext, Classical.choice, Quot.sound

## C39

* `Verif.Xml.C39_tag_match_iff`: propext, Classical.choice, Quot.sound

## C40

* `Verif.Xml.C40_uuid_text_round_trip`: propext, Classical.choice, Quot.sound
* `Verif.Xml.C40_letter_case_ignored`: propext, Quot.sound
* `Verif.Xml.C40_uuid_text_injective`: propext, Classical.choice, Quot.sound
* `Verif.Xml.C40_matching_uuids_iff`: propext, Classical.choice, Quot.sound
* `Verif.Xml.C40_none_never_matches`: propext
* `Verif.Xml.C40_uuid_in_list_iff`: propext, Quot.sound

## C41

* `Verif.TimeSeries.C41_from_list_succeeds`: propext, Classical.choice, Quot.sound
* `Verif.TimeSeries.C41_from_list_times`: propext, Classical.choice, Quot.sound

## C42

* `Verif.Crs.C42_rotation_sense`: propext, Classical.choice, Quot.sound

## C43

* `Verif.Crs.C43_array_conversion_partial`: propext, Classical.choice, Quot.sound
* `Verif.Crs.C43_rotation_units_violated`: propext, Classical.choice, Quot.sound

## C44

* `Verif.Volume.C44_hexa_volume`: propext, Classical.choice, Quot.sound
* `Verif.Volume.C44_block_and_hexa_grids_violated`: propext, Classical.choice, Quot.sound
* `Verif.Volume.C44_tetrahedron_volume`: propext, Classical.choice, Quot.sound
* `Verif.Volume.C44_pyramid_volume`: propext, Classical.choice, Quot.sound

## C45

* `Verif.GridFns.C45_columns_on_the_right`: propext, Quot.sound
* `Verif.GridFns.C45_ends_of_path`: propext, Quot.sound
* `Verif.GridFns.C45_reversed_path`: propext
* `Verif.GridFns.C45_consistent_along_path`: propext

## C46

* `Verif.GridFns.C46_infill_partial`: propext, Classical.choice, Quot.sound
* `Verif.GridFns.C46_snap_overwrites_violated`: propext, Classical.choice, Quot.sound
* `Verif.GridFns.C46_small_overlap_fails_violated`: propext, Classical.choice, Quot.sound

## C47

* `Verif.GridFns.C47_given_shift`: propext, Quot.sound
* `Verif.GridFns.C47_least_value`: propext, Classical.choice, Quot.sound
* `Verif.GridFns.C47_shift_rounded_up_violated`: propext, Classical.choice, Quot.sound

## C48

* `Verif.Gcs.C48_marked_faces`: propext, Classical.choice, Quot.sound
* `Verif.Gcs.C48_each_face_once`: propext, Classical.choice, Quot.sound
* `Verif.Gcs.C48_feature`: propext
* `Verif.Gcs.C48_skin`: propext, Classical.choice, Quot.sound

## C49

* `Verif.Gcs.C49_sorted_distinct`: propext, Classical.choice, Quot.sound
* `Verif.Gcs.C49_listed_faces`: propext, Classical.choice, Quot.sound
* `Verif.Gcs.C49_properties_aligned_partial`: propext, Classical.choice, Quot.sound
* `Verif.Gcs.C49_properties_left_behind_violated`: propext, Classical.choice, Quot.sound

## C50

* `Verif.Gcs.C50_filter_by_mask`: propext, Classical.choice, Quot.sound
* `Verif.Gcs.C50_layer_range_partial`: propext, Classical.choice, Quot.sound
* `Verif.Gcs.C50_layer_defaults_violated`: propext
* `Verif.Gcs.C50_single_feature`: propext, Classical.choice, Quot.sound
* `Verif.Gcs.C50_feature_by_name_partial`: propext, Classical.choice, Quot.sound
* `Verif.Gcs.C50_name_prefix_violated`: propext, Classical.choice, Quot.sound

## C51

* `Verif.Gcs.C51_append`: propext, Quot.sound
* `Verif.Gcs.C51_merge`: propext, Classical.choice, Quot.sound

## C52

* `Verif.Gcs.C52_inherit_partial`: propext, Classical.choice, Quot.sound
* `Verif.Gcs.C52_common_feature_violated`: propext, Quot.sound
* `Verif.Gcs.C52_unused_feature_violated`: propext, Quot.sound

## C53

* `Verif.Gcs.C53_series_partial`: propext, Classical.choice, Quot.sound
* `Verif.Gcs.C53_per_connection`: propext, Classical.choice, Quot.sound
* `Verif.Gcs.C53_bounds`: propext, Classical.choice, Quot.sound
* `Verif.Gcs.C53_second_face_violated`: propext, Classical.choice, Quot.sound

## C54

* `Verif.Gcs.C54_faces`: propext, Classical.choice, Quot.sound
* `Verif.Gcs.C54_multipliers_partial`: propext, Classical.choice, Quot.sound
* `Verif.Gcs.C54_next_multiplier_violated`: propext, Classical.choice, Quot.sound
* `Verif.Gcs.C54_merged_multiplier_violated`: propext, Classical.choice, Quot.sound

## C55

* `Verif.Gcs.C55_combined`: propext, Quot.sound
* `Verif.Gcs.C55_succeeds`: propext, Classical.choice, Quot.sound

## C56

* `Verif.Gcs.C56_columns`: propext, Classical.choice, Quot.sound
* `Verif.Gcs.C56_no_exception`: propext, Quot.sound
* `Verif.Gcs.C56_discrete_default_null_violated`: propext, Quot.sound

## C57

* `Verif.Gcs.C57_table_partial`: propext, Classical.choice, Quot.sound
* `Verif.Gcs.C57_existing_objects_violated`: propext, Classical.choice, Quot.sound
* `Verif.Gcs.C57_existing_interpretation_violated`: propext, Classical.choice, Quot.sound
* `Verif.Gcs.C57_lower_case_letter_violated`: propext

## C58

* `Verif.Gcs.C58_interfaces`: propext, Classical.choice, Quot.sound
* `Verif.Gcs.C58_last`: propext, Classical.choice, Quot.sound
* `Verif.Gcs.C58_connections`: propext, Classical.choice, Quot.sound
* `Verif.Gcs.C58_thickness`: propext, Classical.choice, Quot.sound

## C59

* `Verif.Gcs.C59_values_partial`: propext, Quot.sound
* `Verif.Gcs.C59_face_identity`: propext, Classical.choice, Quot.sound
* `Verif.Gcs.C59_baffle_violated`: propext

## C60

* `Verif.Polygon.C60_scan_partial`: propext, Classical.choice, Quot.sound
* `Verif.Polygon.C60_scan_violated`: propext, Classical.choice, Quot.sound

## C61

* `Verif.Polygon.C61_pixel_map_partial`: propext, Classical.choice, Quot.sound
* `Verif.Polygon.C61_pixel_map_violated`: propext, Classical.choice, Quot.sound

## C62

* `Verif.Lines.C62_blank_lines`: propext
* `Verif.Lines.C62_read_back`: propext, Quot.sound
* `Verif.Lines.C62_all_or_nothing`: propext, Quot.sound

## C63

* `Verif.TriMesh.C63_points_partial`: propext, Classical.choice, Quot.sound
* `Verif.TriMesh.C63_big_violated`: propext, Classical.choice, Quot.sound

## C64

* `Verif.TriMesh.C64_edges`: propext, Classical.choice, Quot.sound
* `Verif.TriMesh.C64_edges_once`: propext, Classical.choice, Quot.sound
* `Verif.TriMesh.C64_crossings_partial`: propext, Classical.choice, Quot.sound
* `Verif.TriMesh.C64_count`: propext, Classical.choice, Quot.sound
* `Verif.TriMesh.C64_node_violated`: propext, Classical.choice, Quot.sound

## C65

* `Verif.TriMesh.C65_x_partial`: propext, Classical.choice, Quot.sound
* `Verif.TriMesh.C65_y_partial`: propext, Classical.choice, Quot.sound
* `Verif.TriMesh.C65_row_violated`: propext, Classical.choice, Quot.sound
* `Verif.TriMesh.C65_x_violated`: propext, Classical.choice, Quot.sound

## C66

* `Verif.Wells.C66_xyz`: propext, Classical.choice, Quot.sound
* `Verif.Wells.C66_xyz_datum`: propext, Classical.choice, Quot.sound
* `Verif.Wells.C66_knots`: propext, Classical.choice, Quot.sound

## C67

* `Verif.Wells.C67_interval`: propext, Classical.choice, Quot.sound
* `Verif.Wells.C67_cells_have_intervals`: propext, Classical.choice, Quot.sound
* `Verif.Wells.C67_md_cell`: propext, Classical.choice, Quot.sound
* `Verif.Wells.C67_cell_md`: propext, Classical.choice, Quot.sound
* `Verif.Wells.C67_md_none`: propext, Classical.choice, Quot.sound
* `Verif.Wells.C67_map`: propext, Classical.choice, Quot.sound
* `Verif.Wells.C67_compressed`: propext, Classical.choice, Quot.sound

## C68

* `Verif.Wells.C68_contributions`: propext, Classical.choice, Quot.sound
* `Verif.Wells.C68_kh`: propext, Classical.choice, Quot.sound
* `Verif.Wells.C68_length`: propext, Classical.choice, Quot.sound
* `Verif.Wells.C68_active_partial`: propext, Classical.choice, Quot.sound
* `Verif.Wells.C68_active_violated`: propext, Classical.choice, Quot.sound
* `Verif.Wells.C68_skin_partial`: propext, Classical.choice, Quot.sound
* `Verif.Wells.C68_skin_violated`: propext, Classical.choice, Quot.sound
* `Verif.Wells.C68_list`: propext, Classical.choice, Quot.sound
* `Verif.Wells.C68_kh_total`: propext, Classical.choice, Quot.sound

## C69

* `Verif.Wells.C69_fraction_partial`: propext, Classical.choice, Quot.sound
* `Verif.Wells.C69_none`: propext, Quot.sound
* `Verif.Wells.C69_overlapping_violated`: propext, Classical.choice, Quot.sound

## C70

* `Verif.Wells.Survey.C70_arc_partial`: propext, Classical.choice, Quot.sound
* `Verif.Wells.Survey.C70_points_partial`: propext, Classical.choice, Quot.sound
* `Verif.Wells.Survey.C70_vertical_violated`: propext, Classical.choice, Quot.sound
* `Verif.Wells.Survey.C70_full_turn_violated`: propext, Classical.choice, Quot.sound
* `Verif.Wells.Survey.C70_radians_violated`: propext, Classical.choice, Quot.sound

## C71

* `Verif.Wells.Survey.C71_inclination_partial`: propext, Classical.choice, Quot.sound
* `Verif.Wells.Survey.C71_up_violated`: propext, Classical.choice, Quot.sound

## C72

* `Verif.CpGrid.C72_reloaded_corner`: propext, Classical.choice, Quot.sound
* `Verif.CpGrid.C72_exact`: propext, Classical.choice, Quot.sound
* `Verif.CpGrid.C72_gap_iff`: propext, Classical.choice, Quot.sound
* `Verif.CpGrid.C72_mapping_agrees`: propext, Classical.choice, Quot.sound
* `Verif.CpGrid.C72_memory_corner_partial`: propext, Classical.choice, Quot.sound
* `Verif.CpGrid.C72_raw_index_violated`: propext, Classical.choice, Quot.sound
* `Verif.CpGrid.C72_raw_index_more_violated`: propext, Classical.choice, Quot.sound

## C73

* `Verif.CpGrid.C73_shared_line`: propext, Classical.choice, Quot.sound
* `Verif.CpGrid.C73_unfaulted`: propext, Classical.choice, Quot.sound
* `Verif.CpGrid.C73_primary_column`: propext, Classical.choice, Quot.sound

## C74

* `Verif.Extract.C74_gaps`: propext, Quot.sound
* `Verif.Extract.C74_inactive`: propext, Classical.choice, Quot.sound
* `Verif.Extract.C74_outside_refused`: propext, Quot.sound
* `Verif.Extract.C74_corners_partial`: propext, Classical.choice, Quot.sound
* `Verif.Extract.C74_simple_faults_partial`: propext, Classical.choice, Quot.sound
* `Verif.Extract.C74_unfaulted`: propext, Classical.choice, Quot.sound
* `Verif.Extract.C74_corners_violated`: propext, Quot.sound

## C75

* `Verif.Upscale.C75_volumes_conserved_partial`: propext, Classical.choice, Quot.sound
* `Verif.Upscale.C75_field_totals_partial`: propext, Classical.choice, Quot.sound
* `Verif.Upscale.C75_means_in_range_partial`: propext, Classical.choice, Quot.sound
* `Verif.Upscale.C75_volumes_conserved_geometry_partial`: propext, Classical.choice, Quot.sound
* `Verif.Upscale.C75_lengths_in_range`: propext, Classical.choice, Quot.sound
* `Verif.Upscale.C75_discrete_value_taken`: propext, Classical.choice, Quot.sound
* `Verif.Upscale.C75_rock_volume_is_pore_volume_violated`: propext, Classical.choice, Quot.sound
* `Verif.Upscale.C75_rock_volume_violated`: propext, Classical.choice, Quot.sound
* `Verif.Upscale.C75_grid_volumes_kept_violated`: propext, Quot.sound
* `Verif.Upscale.C75_permeability_weights_violated`: propext, Classical.choice, Quot.sound
* `Verif.Upscale.C75_missing_values_violated`: propext, Classical.choice, Quot.sound
* `Verif.Upscale.C75_realizations_violated`: propext, Classical.choice, Quot.sound

## C76

* `Verif.Decoarsen.C76_icoars_partial`: propext, Classical.choice, Quot.sound
* `Verif.Decoarsen.C76_kid_partial`: propext, Classical.choice, Quot.sound
* `Verif.Decoarsen.C76_identity`: propext, Classical.choice, Quot.sound
* `Verif.Decoarsen.C76_kinds`: propext, Classical.choice, Quot.sound
* `Verif.Decoarsen.C76_planes_aligned`: propext, Classical.choice, Quot.sound
* `Verif.Decoarsen.C76_skipped_property_violated`: propext, Classical.choice, Quot.sound
* `Verif.Decoarsen.C76_skipped_first_violated`: propext, Classical.choice, Quot.sound
* `Verif.Decoarsen.C76_kid_not_aligned_violated`: propext, Classical.choice, Quot.sound

## C77

* `Verif.Refine.C77_refined`: propext, Classical.choice, Quot.sound
* `Verif.Refine.C77_every_slice`: propext, Classical.choice, Quot.sound
* `Verif.Refine.C77_coarse_corners_kept`: propext, Classical.choice, Quot.sound
* `Verif.Refine.C77_refined_corner_points`: propext, Classical.choice, Quot.sound
* `Verif.Refine.C77_refused`: propext, Classical.choice, Quot.sound

## C78

* `Verif.Refine.C78_sampled`: propext, Classical.choice, Quot.sound
* `Verif.Refine.C78_lengths`: propext, Classical.choice, Quot.sound
* `Verif.Refine.C78_lengths_add_up`: propext, Classical.choice, Quot.sound
* `Verif.Refine.C78_selected`: propext, Classical.choice, Quot.sound
* `Verif.Refine.C78_constant_length_violated`: propext, Classical.choice, Quot.sound
* `Verif.Refine.C78_string_lookup_lost_violated`: propext, Classical.choice, Quot.sound

## C79

* `Verif.Refine.C79_coarsened`: propext, Classical.choice, Quot.sound
* `Verif.Refine.C79_refine_then_coarsen`: propext, Classical.choice, Quot.sound
* `Verif.Refine.C79_refused`: propext, Classical.choice, Quot.sound

## C80

* `Verif.Derived.C80_unsplit_points`: propext, Classical.choice, Quot.sound
* `Verif.Derived.C80_unfaulted_nodes_kept`: propext, Classical.choice, Quot.sound
* `Verif.Derived.C80_unsplit_points_plain`: propext, Classical.choice, Quot.sound
* `Verif.Derived.C80_asked_again`: propext, Classical.choice, Quot.sound
* `Verif.Derived.C80_unsplit_grid_partial`: propext, Classical.choice, Quot.sound
* `Verif.Derived.C80_gaps_violated`: propext, Classical.choice, Quot.sound
* `Verif.Derived.C80_unfaulted_refused`: propext, Classical.choice, Quot.sound

## C81

* `Verif.Derived.C81_single_layer`: propext, Classical.choice, Quot.sound
* `Verif.Derived.C81_zonal_partial`: propext, Classical.choice, Quot.sound
* `Verif.Derived.C81_zone_base_violated`: propext, Classical.choice, Quot.sound
* `Verif.Derived.C81_first_layer_collapsed_violated`: propext, Classical.choice, Quot.sound
* `Verif.Derived.C81_one_range_ignored_violated`: propext, Classical.choice, Quot.sound
* `Verif.Derived.C81_regular_partial`: propext, Classical.choice, Quot.sound
* `Verif.Derived.C81_regular_origin_violated`: propext, Classical.choice, Quot.sound

## C82

* `Verif.Derived.C82_pillars_partial`: propext, Quot.sound
* `Verif.Derived.C82_corners_partial`: propext, Classical.choice, Quot.sound
* `Verif.Derived.C82_corners_exact_partial`: propext, Classical.choice, Quot.sound
* `Verif.Derived.C82_any_faults_partial`: propext, Classical.choice, Quot.sound
* `Verif.Derived.C82_inactive`: propext, Classical.choice, Quot.sound
* `Verif.Derived.C82_refused`: propext, Quot.sound
* `Verif.Derived.C82_gaps_violated`: propext, Classical.choice, Quot.sound

## C83

* `Verif.Derived.C83_decay`: propext, Classical.choice, Quot.sound
* `Verif.Derived.C83_adjusted_partial`: propext, Classical.choice, Quot.sound
* `Verif.Derived.C83_thickness_partial`: propext, Classical.choice, Quot.sound
* `Verif.Derived.C83_rotated_refused`: propext, Classical.choice, Quot.sound
* `Verif.Derived.C83_negative_rotation_violated`: propext, Classical.choice, Quot.sound
* `Verif.Derived.C83_negative_radius_violated`: propext, Classical.choice, Quot.sound

## C84

* `Verif.Derived.C84_shift_at_faults`: propext, Classical.choice, Quot.sound
* `Verif.Derived.C84_throws_scaled`: propext, Classical.choice, Quot.sound
* `Verif.Derived.C84_mean_kept`: propext, Classical.choice, Quot.sound
* `Verif.Derived.C84_pillars_moved_whole`: propext, Classical.choice, Quot.sound
* `Verif.Derived.C84_far_kept`: propext, Classical.choice, Quot.sound
* `Verif.Derived.C84_decay`: propext, Classical.choice, Quot.sound
* `Verif.Derived.C84_along_pillar`: propext, Classical.choice, Quot.sound
* `Verif.Derived.C84_factor_one`: propext, Classical.choice, Quot.sound
* `Verif.Derived.C84_refused`: propext, Classical.choice, Quot.sound

## C85

* `Verif.Derived.C85_shifts`: propext, Classical.choice, Quot.sound
* `Verif.Derived.C85_on_surface`: propext, Classical.choice, Quot.sound
* `Verif.Derived.C85_thickness_throw_kept`: propext, Classical.choice, Quot.sound
* `Verif.Derived.C85_refused`: propext, Classical.choice, Quot.sound
* `Verif.Derived.C85_unsplit_points_stale_violated`: propext, Classical.choice, Quot.sound

## C86

* `Verif.AddFaults.C86_corners_moved`: propext, Classical.choice, Quot.sound
* `Verif.AddFaults.C86_tables_in_order`: propext, Classical.choice, Quot.sound
* `Verif.AddFaults.C86_again`: propext, Classical.choice, Quot.sound
* `Verif.AddFaults.C86_simple_path`: propext, Classical.choice, Quot.sound
* `Verif.AddFaults.C86_elsewhere`: propext, Classical.choice, Quot.sound
* `Verif.AddFaults.C86_along_pillar_partial`: propext, Classical.choice, Quot.sound
* `Verif.AddFaults.C86_several`: propext, Classical.choice, Quot.sound
* `Verif.AddFaults.C86_one_layer_violated`: propext, Classical.choice, Quot.sound

## C87

* `Verif.Geom.C87_line_triangle`: propext, Classical.choice, Quot.sound
* `Verif.Geom.C87_line_triangle_none`: propext, Classical.choice, Quot.sound
* `Verif.Geom.C87_tolerances`: propext, Classical.choice, Quot.sound
* `Verif.Geom.C87_line_plane`: propext, Classical.choice, Quot.sound
* `Verif.Geom.C87_many_triangles`: propext, Classical.choice, Quot.sound
* `Verif.Geom.C87_many_lines`: propext, Classical.choice, Quot.sound
* `Verif.Geom.C87_distilled`: propext, Quot.sound
* `Verif.Geom.C87_by_line_and_triangle`: propext, Quot.sound
* `Verif.Geom.C87_last`: propext, Quot.sound
* `Verif.Geom.C87_first`: propext, Classical.choice, Quot.sound
* `Verif.Geom.C87_poly_line`: propext, Classical.choice, Quot.sound

## C88

* `Verif.Geom.C88_lines`: propext, Classical.choice, Quot.sound
* `Verif.Geom.C88_segments`: propext, Classical.choice, Quot.sound
* `Verif.Geom.C88_projected`: propext, Classical.choice, Quot.sound
* `Verif.Geom.C88_snapped_partial`: propext, Classical.choice, Quot.sound
* `Verif.Geom.C88_snapped_violated`: propext, Quot.sound
* `Verif.Geom.C88_distance_line`: propext, Classical.choice, Quot.sound
* `Verif.Geom.C88_distance_segment`: propext, Classical.choice, Quot.sound

## C89

* `Verif.Geom.C89_batches`: propext, Classical.choice, Quot.sound
* `Verif.Geom.C89_found_are_inside`: propext, Classical.choice, Quot.sound
* `Verif.Geom.C89_mesh_points_partial`: propext, Classical.choice, Quot.sound
* `Verif.Geom.C89_once`: propext, Classical.choice, Quot.sound
* `Verif.Geom.C89_upright_violated`: propext, Classical.choice, Quot.sound
* `Verif.Geom.C89_sampled`: propext, Classical.choice, Quot.sound
* `Verif.Geom.C89_sampled_points_partial`: propext, Classical.choice, Quot.sound
* `Verif.Geom.C89_one_value`: propext, Classical.choice, Quot.sound

## C90

* `Verif.FindFaces.C90_found`: propext, Classical.choice, Quot.sound
* `Verif.FindFaces.C90_all_found_partial`: propext, Classical.choice, Quot.sound
* `Verif.FindFaces.C90_curtain_partial`: propext, Classical.choice, Quot.sound
* `Verif.FindFaces.C90_upright_violated`: propext, Classical.choice, Quot.sound
* `Verif.FindFaces.C90_depth_violated`: propext, Classical.choice, Quot.sound
* `Verif.FindFaces.C90_curtain_triangles_violated`: propext, Classical.choice, Quot.sound

## C91

* `Verif.FindFaces.C91_raw`: propext, Classical.choice, Quot.sound
* `Verif.FindFaces.C91_raw_arrays`: propext, Classical.choice, Quot.sound
* `Verif.FindFaces.C91_leak`: propext, Classical.choice, Quot.sound
* `Verif.FindFaces.C91_leak_arrays`: propext, Classical.choice, Quot.sound
* `Verif.FindFaces.C91_shallow`: propext, Classical.choice, Quot.sound
* `Verif.FindFaces.C91_shallow_arrays`: propext, Classical.choice, Quot.sound
* `Verif.FindFaces.C91_curtain_partial`: propext, Classical.choice, Quot.sound
* `Verif.FindFaces.C91_curtain_violated`: propext, Classical.choice, Quot.sound

## C92

* `Verif.FindFaces.C92_connected`: propext, Classical.choice, Quot.sound

## C93

* `Verif.FindFaces.C93_shadow_arrays`: propext, Classical.choice, Quot.sound
* `Verif.FindFaces.C93_shadow_partial`: propext, Classical.choice, Quot.sound
* `Verif.FindFaces.C93_no_faces_violated`: propext, Classical.choice, Quot.sound

## C94

* `Verif.Rotate.C94_azimuth_range`: propext, Classical.choice, Quot.sound
* `Verif.Rotate.C94_azimuth`: propext, Classical.choice, Quot.sound
* `Verif.Rotate.C94_unit_of_azimuth`: propext, Classical.choice, Quot.sound
* `Verif.Rotate.C94_azimuth_of_unit`: propext, Classical.choice, Quot.sound
* `Verif.Rotate.C94_azimuths_partial`: propext, Classical.choice, Quot.sound
* `Verif.Rotate.C94_azimuths_violated`: propext, Classical.choice, Quot.sound
* `Verif.Rotate.C94_inclination`: propext, Classical.choice, Quot.sound
* `Verif.Rotate.C94_unit_from_both`: propext, Classical.choice, Quot.sound
* `Verif.Rotate.C94_unit_of_both`: propext, Classical.choice, Quot.sound
* `Verif.Rotate.C94_both_of_unit`: propext, Classical.choice, Quot.sound
* `Verif.Rotate.C94_angle`: propext, Classical.choice, Quot.sound
* `Verif.Rotate.C94_unit_vectors`: propext, Classical.choice, Quot.sound
* `Verif.Rotate.C94_unit_vectors_3d_violated`: propext, Classical.choice, Quot.sound

## C95

* `Verif.Rotate.C95_axial`: propext, Classical.choice, Quot.sound
* `Verif.Rotate.C95_axial_turns`: propext, Classical.choice, Quot.sound
* `Verif.Rotate.C95_axial_add`: propext, Classical.choice, Quot.sound
* `Verif.Rotate.C95_three_turns`: propext, Classical.choice, Quot.sound
* `Verif.Rotate.C95_reverse`: propext, Classical.choice, Quot.sound
* `Verif.Rotate.C95_rotated_array`: propext, Classical.choice, Quot.sound
* `Verif.Rotate.C95_cross_section`: propext, Classical.choice, Quot.sound
* `Verif.Rotate.C95_vector_partial`: propext, Classical.choice, Quot.sound
* `Verif.Rotate.C95_vector_violated`: propext, Classical.choice, Quot.sound

## C96

* `Verif.Rotate.C96_tilt`: propext, Classical.choice, Quot.sound
* `Verif.Rotate.C96_tilt_back`: propext, Classical.choice, Quot.sound

## C97

* `Verif.Rotate.C97_project_partial`: propext, Classical.choice, Quot.sound
* `Verif.Rotate.C97_mirrored_partial`: propext, Classical.choice, Quot.sound
* `Verif.Rotate.C97_project_violated`: propext, Classical.choice, Quot.sound

## C98

* `Verif.Delaunay.C98_delaunay`: propext, Classical.choice, Quot.sound
* `Verif.Delaunay.C98_straight`: propext, Quot.sound
* `Verif.Delaunay.C98_three_points_violated`: propext, Classical.choice, Quot.sound
* `Verif.Delaunay.C98_arrays`: propext, Classical.choice, Quot.sound

## C99

* `Verif.Delaunay.C99_every_point`: propext, Classical.choice, Quot.sound
* `Verif.Delaunay.C99_boundary`: propext, Classical.choice, Quot.sound

## C100

* `Verif.PropColl.C100_select_partial`: propext, Classical.choice, Quot.sound
* `Verif.PropColl.C100_uom_ignored_violated`: propext, Classical.choice, Quot.sound
* `Verif.PropColl.C100_uom_ignored`: propext, Classical.choice, Quot.sound
* `Verif.PropColl.C100_any_kind_violated`: propext, Classical.choice, Quot.sound
* `Verif.PropColl.C100_any_time_index_violated`: propext, Classical.choice, Quot.sound
* `Verif.PropColl.C100_singleton_partial`: propext, Classical.choice, Quot.sound

## C101

* `Verif.PropColl.C101_inherit_selectively_partial`: propext, Classical.choice, Quot.sound
* `Verif.PropColl.C101_inherit_all`: propext, Quot.sound
* `Verif.PropColl.C101_members_kept`: propext, Classical.choice, Quot.sound
* `Verif.PropColl.C101_similar_over_time_partial`: propext, Classical.choice, Quot.sound
* `Verif.PropColl.C101_similar_over_realizations_partial`: propext, Classical.choice, Quot.sound
* `Verif.PropColl.C101_similar_over_facets_partial`: propext, Classical.choice, Quot.sound
* `Verif.PropColl.C101_similar_over_time_violated`: propext, Classical.choice, Quot.sound

## C102

* `Verif.PropColl.C102_single_partial`: propext, Quot.sound
* `Verif.PropColl.C102_uom_order_violated`: none
* `Verif.PropColl.C102_stale_violated`: propext
* `Verif.PropColl.C102_stale`: propext, Quot.sound
* `Verif.PropColl.C102_multiple_realizations`: propext, Classical.choice, Quot.sound
* `Verif.PropColl.C102_time_set`: propext, Quot.sound
* `Verif.PropColl.C102_assign_realizations`: propext, Classical.choice, Quot.sound

## C103

* `Verif.PropColl.C103_filled`: propext, Classical.choice, Quot.sound
* `Verif.PropColl.C103_present`: propext, Classical.choice, Quot.sound
* `Verif.PropColl.C103_facets`: propext, Classical.choice, Quot.sound
* `Verif.PropColl.C103_succeeds`: propext, Classical.choice, Quot.sound
* `Verif.PropColl.C103_mixed_kinds_violated`: propext, Classical.choice, Quot.sound

## C104

* `Verif.PropColl.C104_masked_partial`: propext, Classical.choice, Quot.sound
* `Verif.PropColl.C104_null_zero`: propext, Quot.sound
* `Verif.PropColl.C104_null_zero_violated`: propext, Quot.sound
* `Verif.PropColl.C104_part_partial`: propext, Classical.choice, Quot.sound
* `Verif.PropColl.C104_nan_violated`: propext, Classical.choice, Quot.sound
* `Verif.PropColl.C104_points_partial`: propext, Classical.choice, Quot.sound
* `Verif.PropColl.C104_points_violated`: propext, Quot.sound
* `Verif.PropColl.C104_points_part_violated`: propext, Quot.sound

## C105

* `Verif.PropColl.C105_import_partial`: propext, Classical.choice, Quot.sound
* `Verif.PropColl.C105_null_zero_violated`: propext, Quot.sound
* `Verif.PropColl.C105_inactive_violated`: propext, Quot.sound
* `Verif.PropColl.C105_import_constant`: propext, Quot.sound
* `Verif.PropColl.C105_xml_partial`: propext, Classical.choice, Quot.sound
* `Verif.PropColl.C105_xml_null_violated`: propext, Classical.choice, Quot.sound
* `Verif.PropColl.C105_xml_constant_violated`: propext, Classical.choice, Quot.sound

## C106

* `Verif.PropColl.C106_range_partial`: propext, Classical.choice, Quot.sound
* `Verif.PropColl.C106_linear`: propext, Classical.choice, Quot.sound
* `Verif.PropColl.C106_cycle`: propext, Classical.choice, Quot.sound
* `Verif.PropColl.C106_order_partial`: propext, Classical.choice, Quot.sound
* `Verif.PropColl.C106_zero_partial`: propext, Classical.choice, Quot.sound
* `Verif.PropColl.C106_zero_violated`: propext, Classical.choice, Quot.sound
* `Verif.PropColl.C106_all_nan_violated`: propext, Classical.choice, Quot.sound
* `Verif.PropColl.C106_refused`: propext, Classical.choice, Quot.sound

## C107

* `Verif.PropColl.C107_faces_order`: propext
* `Verif.PropColl.C107_faces_round_trip`: propext, Quot.sound
* `Verif.PropColl.C107_faces_refused`: propext
* `Verif.PropColl.C107_same_faces`: none
* `Verif.PropColl.C107_edges`: propext

## C108

* `Verif.PropColl.C108_written_partial`: propext, Quot.sound
* `Verif.PropColl.C108_read_back_partial`: propext, Classical.choice, Quot.sound
* `Verif.PropColl.C108_packing_violated`: propext, Classical.choice, Quot.sound
* `Verif.PropColl.C108_constant_violated`: propext
* `Verif.PropColl.C108_part`: propext, Quot.sound

## C109

* `Verif.PropColl.C109_metadata_partial`: propext, Quot.sound
* `Verif.PropColl.C109_discrete_violated`: none
* `Verif.PropColl.C109_lookup_violated`: none

## C110

* `Verif.Plane.C110_crossings`: propext, Classical.choice, Quot.sound
* `Verif.Plane.C110_start_and_direction`: propext, Classical.choice, Quot.sound
* `Verif.Plane.C110_cut`: propext, Classical.choice, Quot.sound
* `Verif.Plane.C110_same_as_crossing_number`: propext, Classical.choice, Quot.sound
* `Verif.Plane.C110_triangle`: propext, Classical.choice, Quot.sound
* `Verif.Plane.C110_versions_agree`: propext, Classical.choice, Quot.sound
* `Verif.Plane.C110_shared_side`: propext, Classical.choice, Quot.sound
* `Verif.Plane.C110_listed`: propext, Quot.sound
* `Verif.Plane.C110_listed_many`: propext, Classical.choice, Quot.sound

## C111

* `Verif.Plane.C111_inside`: propext, Classical.choice, Quot.sound
* `Verif.Plane.C111_edged_partial`: propext, Classical.choice, Quot.sound
* `Verif.Plane.C111_edged_violated`: propext, Classical.choice, Quot.sound
* `Verif.Plane.C111_shape`: propext, Classical.choice, Quot.sound

## C112

* `Verif.Plane.C112_mesh`: propext, Classical.choice, Quot.sound
* `Verif.Plane.C112_once`: propext, Classical.choice, Quot.sound
* `Verif.Plane.C112_inside`: propext, Classical.choice, Quot.sound

## C113

* `Verif.Plane.C113_area`: propext, Classical.choice, Quot.sound
* `Verif.Plane.C113_areas`: propext, Classical.choice, Quot.sound
* `Verif.Plane.C113_normal`: propext, Classical.choice, Quot.sound
* `Verif.Plane.C113_circumcentre`: propext, Classical.choice, Quot.sound

## C114

* `Verif.Plane.C114_nearest`: propext, Classical.choice, Quot.sound
* `Verif.Plane.C114_projection`: propext, Classical.choice, Quot.sound
* `Verif.Plane.C114_clockwise`: propext, Classical.choice, Quot.sound
* `Verif.Plane.C114_too_few`: propext, Classical.choice, Quot.sound
* `Verif.Plane.C114_turn`: propext, Classical.choice, Quot.sound
* `Verif.Plane.C114_axis`: propext, Classical.choice, Quot.sound
* `Verif.Plane.C114_no_points`: propext, Classical.choice, Quot.sound

## C115

* `Verif.Transmit.C115_value`: propext, Classical.choice, Quot.sound
* `Verif.Transmit.C115_gaps_violated`: propext, Classical.choice, Quot.sound
* `Verif.Transmit.C115_box_partial`: propext, Classical.choice, Quot.sound
* `Verif.Transmit.C115_regular_partial`: propext, Classical.choice, Quot.sound
* `Verif.Transmit.C115_moved`: propext, Classical.choice, Quot.sound
* `Verif.Transmit.C115_turned_violated`: propext, Classical.choice, Quot.sound
* `Verif.Transmit.C115_darcy`: propext, Classical.choice, Quot.sound

## C116

* `Verif.Transmit.C116_series`: propext, Classical.choice, Quot.sound
* `Verif.Transmit.C116_bounds`: propext, Classical.choice, Quot.sound
* `Verif.Transmit.C116_computed_partial`: propext, Quot.sound
* `Verif.Transmit.C116_cache_violated`: propext, Quot.sound
* `Verif.Transmit.C116_realization`: propext, Quot.sound
* `Verif.Transmit.C116_stored`: propext, Quot.sound
* `Verif.Transmit.C116_not_stored_violated`: propext, Quot.sound
* `Verif.Transmit.C116_modifiers_violated`: propext, Quot.sound
* `Verif.Transmit.C116_half_property_violated`: propext, Quot.sound
* `Verif.Transmit.C116_half_tolerance_violated`: propext, Quot.sound
* `Verif.Transmit.C116_half_kept`: propext, Quot.sound

## C117

* `Verif.Transmit.C117_exact_partial`: propext, Classical.choice, Quot.sound
* `Verif.Transmit.C117_steep_violated`: propext, Classical.choice, Quot.sound
* `Verif.Transmit.C117_never_raises`: propext, Classical.choice, Quot.sound
* `Verif.Transmit.C117_no_points_violated`: propext, Quot.sound
* `Verif.Transmit.C117_totals`: propext, Classical.choice, Quot.sound
* `Verif.Transmit.C117_areas_partial`: propext, Classical.choice, Quot.sound
* `Verif.Transmit.C117_fault`: propext, Quot.sound

## C118

* `Verif.Transmit.Prism.C118_lengths`: propext, Classical.choice, Quot.sound
* `Verif.Transmit.Prism.C118_vertical`: propext, Classical.choice, Quot.sound
* `Verif.Transmit.Prism.C118_sides_partial`: propext, Classical.choice, Quot.sound
* `Verif.Transmit.Prism.C118_thickness`: propext, Classical.choice, Quot.sound
* `Verif.Transmit.Prism.C118_height_violated`: propext, Classical.choice, Quot.sound
* `Verif.Transmit.Prism.C118_order_violated`: propext, Classical.choice, Quot.sound
* `Verif.Transmit.Prism.C118_triple`: propext, Classical.choice, Quot.sound
* `Verif.Transmit.Prism.C118_stored_violated`: none

## C119

* `Verif.Unstruct.C119_rows`: propext, Quot.sound
* `Verif.Unstruct.C119_packable`: propext, Classical.choice, Quot.sound
* `Verif.Unstruct.C119_max_count_partial`: propext, Classical.choice, Quot.sound
* `Verif.Unstruct.C119_max_count_violated`: propext, Classical.choice, Quot.sound
* `Verif.Unstruct.C119_cells_per_face`: propext, Classical.choice, Quot.sound
* `Verif.Unstruct.C119_masked_cells_per_face`: propext, Classical.choice, Quot.sound
* `Verif.Unstruct.C119_external_partial`: propext, Classical.choice, Quot.sound
* `Verif.Unstruct.C119_masked_faces`: propext, Classical.choice, Quot.sound
* `Verif.Unstruct.C119_masked_faces_refused`: propext, Classical.choice, Quot.sound
* `Verif.Unstruct.C119_refused_once_violated`: propext
* `Verif.Unstruct.C119_external_unused_violated`: propext
* `Verif.Unstruct.C119_distinct_nodes`: propext, Classical.choice, Quot.sound
* `Verif.Unstruct.C119_edges`: propext, Quot.sound
* `Verif.Unstruct.C119_ordered_edges`: propext, Quot.sound
* `Verif.Unstruct.C119_distinct_edges`: propext, Classical.choice, Quot.sound
* `Verif.Unstruct.C119_pyramid_faces`: propext, Classical.choice, Quot.sound

## C120

* `Verif.Unstruct.Hexa.C120_face_nodes`: propext, Classical.choice, Quot.sound
* `Verif.Unstruct.Hexa.C120_shared_faces`: propext, Classical.choice, Quot.sound
* `Verif.Unstruct.Hexa.C120_valid`: propext, Classical.choice, Quot.sound
* `Verif.Unstruct.Hexa.C120_external`: propext, Classical.choice, Quot.sound
* `Verif.Unstruct.Hexa.C120_corner_points`: propext, Classical.choice, Quot.sound
* `Verif.Unstruct.Hexa.C120_volume_partial`: propext, Classical.choice, Quot.sound
* `Verif.Unstruct.Hexa.C120_volume_agrees_partial`: propext, Classical.choice, Quot.sound
* `Verif.Unstruct.Hexa.C120_volume_sign_violated`: propext, Classical.choice, Quot.sound
* `Verif.Unstruct.Hexa.C120_unit_cube_violated`: propext, Classical.choice, Quot.sound

## C121

* `Verif.TriEdges.C121_edges`: propext, Classical.choice, Quot.sound
* `Verif.TriEdges.C121_rim_edges`: propext, Classical.choice, Quot.sound
* `Verif.TriEdges.C121_triangles_using`: propext, Classical.choice, Quot.sound
* `Verif.TriEdges.C121_triangles_using_edges`: propext, Classical.choice, Quot.sound
* `Verif.TriEdges.C121_triangles_using_edges_values`: propext, Classical.choice, Quot.sound

## C122

* `Verif.TriEdges.C122_fuel`: propext, Classical.choice, Quot.sound
* `Verif.TriEdges.C122_rims`: propext, Classical.choice, Quot.sound
* `Verif.TriEdges.C122_rims_found`: propext, Classical.choice, Quot.sound
* `Verif.TriEdges.C122_rims_of_surface`: propext, Classical.choice, Quot.sound
* `Verif.TriEdges.C122_three_triangles_on_an_edge`: propext

## C123

* `Verif.Unstruct.Prism.C123_find_pair`: propext, Quot.sound
* `Verif.Unstruct.Prism.C123_made`: propext, Classical.choice, Quot.sound
* `Verif.Unstruct.Prism.C123_faces`: propext, Classical.choice, Quot.sound
* `Verif.Unstruct.Prism.C123_shared`: propext, Classical.choice, Quot.sound
* `Verif.Unstruct.Prism.C123_valid`: propext, Classical.choice, Quot.sound
* `Verif.Unstruct.Prism.C123_external`: propext, Classical.choice, Quot.sound
* `Verif.Unstruct.Prism.C123_corners`: propext, Classical.choice, Quot.sound
* `Verif.Unstruct.Prism.C123_triangulation_partial`: propext, Classical.choice, Quot.sound
* `Verif.Unstruct.Prism.C123_triangulation_violated`: propext, Quot.sound
* `Verif.Unstruct.Prism.C123_z_values`: propext, Quot.sound
* `Verif.Unstruct.Prism.C123_in_order`: propext, Quot.sound

## C124

* `Verif.Unstruct.Tetra.C124_divided`: propext, Classical.choice, Quot.sound
* `Verif.Unstruct.Tetra.C124_shared_faces`: propext, Classical.choice, Quot.sound
* `Verif.Unstruct.Tetra.C124_volume`: propext, Classical.choice, Quot.sound
* `Verif.Unstruct.Tetra.C124_tetrahedron`: propext, Quot.sound
* `Verif.Unstruct.Tetra.C124_prism`: propext, Classical.choice, Quot.sound
* `Verif.Unstruct.Tetra.C124_prism_centre`: propext, Classical.choice, Quot.sound
* `Verif.Unstruct.Tetra.C124_pyramid`: propext, Classical.choice, Quot.sound
* `Verif.Unstruct.Tetra.C124_enclosed`: propext, Classical.choice, Quot.sound
* `Verif.Unstruct.Tetra.C124_enclosed_volume_partial`: propext, Classical.choice, Quot.sound
* `Verif.Unstruct.Tetra.C124_at_least_enclosed`: propext, Classical.choice, Quot.sound
* `Verif.Unstruct.Tetra.C124_hollow_violated`: propext, Classical.choice, Quot.sound

## C125

* `Verif.Blocking.C125_counts`: propext, Classical.choice, Quot.sound
* `Verif.Blocking.C125_measured_depths`: propext, Classical.choice, Quot.sound
* `Verif.Blocking.C125_increasing_partial`: propext, Classical.choice, Quot.sound
* `Verif.Blocking.C125_intervals`: propext, Classical.choice, Quot.sound
* `Verif.Blocking.C125_cells_partial`: propext, Classical.choice, Quot.sound
* `Verif.Blocking.C125_faces`: propext, Classical.choice, Quot.sound
* `Verif.Blocking.C125_column`: propext, Classical.choice, Quot.sound
* `Verif.Blocking.C125_other_grid_violated`: propext, Classical.choice, Quot.sound
* `Verif.Blocking.C125_first_row_violated`: propext, Classical.choice, Quot.sound
* `Verif.Blocking.C125_angles_violated`: propext, Quot.sound
* `Verif.Blocking.C125_upwards_violated`: propext, Classical.choice, Quot.sound
* `Verif.Blocking.C125_columns_violated`: propext, Classical.choice, Quot.sound
* `Verif.Blocking.C125_dates_violated`: propext, Quot.sound
* `Verif.Blocking.C125_wellspec_partial`: propext, Quot.sound
* `Verif.Blocking.C125_face_centre`: propext, Classical.choice, Quot.sound
* `Verif.Blocking.C125_start`: propext, Quot.sound

## C126

* `Verif.Blocking.C126_rows_partial`: propext, Classical.choice, Quot.sound
* `Verif.Blocking.C126_static_kh`: propext, Classical.choice, Quot.sound
* `Verif.Blocking.C126_succeeds`: propext, Classical.choice, Quot.sound
* `Verif.Blocking.C126_straight_violated`: propext, Classical.choice, Quot.sound
* `Verif.Blocking.C126_no_trajectory_violated`: propext, Classical.choice, Quot.sound
* `Verif.Blocking.C126_min_kh_violated`: propext, Classical.choice, Quot.sound
* `Verif.Blocking.C126_min_length_violated`: propext, Classical.choice, Quot.sound
* `Verif.Blocking.C126_pperf_violated`: propext, Classical.choice, Quot.sound
* `Verif.Blocking.C126_depth_violated`: propext, Quot.sound
* `Verif.Blocking.C126_depth_partial`: propext, Quot.sound
* `Verif.Blocking.C126_as_properties_violated`: propext, Classical.choice, Quot.sound
* `Verif.Blocking.C126_default_radius_violated`: propext, Classical.choice, Quot.sound

## C127

* `Verif.Blocking.C127_across`: propext, Classical.choice, Quot.sound
* `Verif.Blocking.C127_bounds`: propext, Classical.choice, Quot.sound
* `Verif.Blocking.C127_signs`: propext, Classical.choice, Quot.sound
* `Verif.Blocking.C127_never_raises`: propext, Classical.choice, Quot.sound
* `Verif.Blocking.C127_preferential`: propext, Classical.choice, Quot.sound
* `Verif.Blocking.C127_vertical_net`: propext, Classical.choice, Quot.sound
* `Verif.Blocking.C127_three`: propext, Classical.choice, Quot.sound
* `Verif.Blocking.C127_three_net`: propext, Classical.choice, Quot.sound
* `Verif.Blocking.C127_only_one_violated`: propext, Classical.choice, Quot.sound
* `Verif.Blocking.C127_named_twice`: propext, Classical.choice, Quot.sound
* `Verif.Blocking.C127_no_vertical_violated`: propext, Classical.choice, Quot.sound
* `Verif.Blocking.C127_left_out`: propext, Classical.choice, Quot.sound

## C128

* `Verif.Blocking.C128_formula`: propext, Classical.choice, Quot.sound
* `Verif.Blocking.C128_axes`: propext, Classical.choice, Quot.sound
* `Verif.Blocking.C128_permeability_unit`: propext, Classical.choice, Quot.sound
* `Verif.Blocking.C128_length_unit`: propext, Classical.choice, Quot.sound
* `Verif.Blocking.C128_never_raises`: propext, Classical.choice, Quot.sound
* `Verif.Blocking.C128_well_index_partial`: propext, Classical.choice, Quot.sound
* `Verif.Blocking.C128_no_permeability`: propext, Classical.choice, Quot.sound
* `Verif.Blocking.C128_small_cells_violated`: propext, Classical.choice, Quot.sound

## C129

* `Verif.Blocking.C129_reference`: propext, Classical.choice, Quot.sound
* `Verif.Blocking.C129_reference_down`: propext, Classical.choice, Quot.sound
* `Verif.Blocking.C129_direction_partial`: propext, Classical.choice, Quot.sound
* `Verif.Blocking.C129_range`: propext, Classical.choice, Quot.sound
* `Verif.Blocking.C129_set_vertical`: propext, Classical.choice, Quot.sound
* `Verif.Blocking.C129_upwards`: propext, Classical.choice, Quot.sound
* `Verif.Blocking.C129_units_violated`: propext, Classical.choice, Quot.sound
* `Verif.Blocking.C129_face_centres_violated`: propext, Classical.choice, Quot.sound
* `Verif.Blocking.C129_turned_violated`: propext, Classical.choice, Quot.sound
* `Verif.Blocking.C129_references`: propext
* `Verif.Blocking.C129_one_unit`: propext, Classical.choice, Quot.sound

## C130

* `Verif.Polyline.C130_full_length`: propext, Classical.choice, Quot.sound
* `Verif.Polyline.C130_segment`: propext, Classical.choice, Quot.sound
* `Verif.Polyline.C130_interpolated`: propext, Classical.choice, Quot.sound
* `Verif.Polyline.C130_unique`: propext, Classical.choice, Quot.sound
* `Verif.Polyline.C130_ends`: propext, Classical.choice, Quot.sound
* `Verif.Polyline.C130_equidistant`: propext, Classical.choice, Quot.sound
* `Verif.Polyline.C130_centre`: propext, Classical.choice, Quot.sound
* `Verif.Polyline.C130_centre_within`: propext, Classical.choice, Quot.sound
* `Verif.Polyline.C130_trimmed`: propext, Classical.choice, Quot.sound
* `Verif.Polyline.C130_scaled`: propext, Classical.choice, Quot.sound
* `Verif.Polyline.C130_scaled_centre`: propext, Classical.choice, Quot.sound
* `Verif.Polyline.C130_cache_violated`: propext, Classical.choice, Quot.sound
* `Verif.Polyline.C130_no_length_violated`: propext, Classical.choice, Quot.sound

## C131

* `Verif.Polyline.C131_turns`: propext, Classical.choice, Quot.sound
* `Verif.Polyline.C131_convex`: propext, Classical.choice, Quot.sound
* `Verif.Polyline.C131_open`: propext, Classical.choice, Quot.sound
* `Verif.Polyline.C131_again`: propext, Classical.choice, Quot.sound
* `Verif.Polyline.C131_clockwise_partial`: propext, Classical.choice, Quot.sound
* `Verif.Polyline.C131_area_partial`: propext, Classical.choice, Quot.sound
* `Verif.Polyline.C131_normal_partial`: propext, Classical.choice, Quot.sound
* `Verif.Polyline.C131_star_violated`: propext, Classical.choice, Quot.sound
* `Verif.Polyline.C131_repeated_violated`: propext, Classical.choice, Quot.sound
* `Verif.Polyline.C131_history_violated`: propext, Classical.choice, Quot.sound
* `Verif.Polyline.C131_clockwise_violated`: propext, Classical.choice, Quot.sound
* `Verif.Polyline.C131_normal_violated`: propext, Classical.choice, Quot.sound
* `Verif.Polyline.C131_area_violated`: propext, Classical.choice, Quot.sound

## C132

* `Verif.Polyline.C132_closest`: propext, Classical.choice, Quot.sound
* `Verif.Polyline.C132_snapped_partial`: propext, Classical.choice, Quot.sound
* `Verif.Polyline.C132_snapped_violated`: propext, Classical.choice, Quot.sound
* `Verif.Polyline.C132_open_violated`: propext, Classical.choice, Quot.sound
* `Verif.Polyline.C132_xyz`: propext, Classical.choice, Quot.sound
* `Verif.Polyline.C132_xyz_on`: propext, Classical.choice, Quot.sound
* `Verif.Polyline.C132_first`: propext, Classical.choice, Quot.sound
* `Verif.Polyline.C132_none`: propext, Classical.choice, Quot.sound
* `Verif.Polyline.C132_crossings`: propext, Classical.choice, Quot.sound
* `Verif.Polyline.C132_crossings_violated`: propext, Classical.choice, Quot.sound

## C133

* `Verif.Polyline.C133_circle`: propext, Classical.choice, Quot.sound
* `Verif.Polyline.C133_inside`: propext, Classical.choice, Quot.sound
* `Verif.Polyline.C133_perimeter_partial`: propext, Classical.choice, Quot.sound
* `Verif.Polyline.C133_square_violated`: propext, Classical.choice, Quot.sound
* `Verif.Polyline.C133_slope_violated`: propext, Classical.choice, Quot.sound

## C134

* `Verif.Polyline.C134_regular`: propext, Classical.choice, Quot.sound
* `Verif.Polyline.C134_convex`: propext, Classical.choice, Quot.sound
* `Verif.Polyline.C134_area`: propext, Classical.choice, Quot.sound

## C135

* `Verif.PolySet.C135_flags`: propext, Classical.choice, Quot.sound

## C136

* `Verif.PolySet.C136_compact`: propext, Classical.choice, Quot.sound
* `Verif.PolySet.C136_round_trip`: propext, Classical.choice, Quot.sound
* `Verif.PolySet.C136_closed_violated`: propext
* `Verif.PolySet.C136_repeated_first_violated`: propext, Classical.choice, Quot.sound

## C137

* `Verif.PolySet.C137_one_patch_partial`: propext, Quot.sound
* `Verif.PolySet.C137_later_patches_violated`: propext, Quot.sound
* `Verif.PolySet.C137_two_patches_violated`: propext

## C138

* `Verif.PolySet.C138_combined`: propext, Quot.sound
* `Verif.PolySet.C138_changed_violated`: propext, Quot.sound
* `Verif.PolySet.C138_twice_violated`: propext
* `Verif.PolySet.C138_one_crs`: propext, Classical.choice, Quot.sound
* `Verif.PolySet.C138_unchanged_partial`: propext, Classical.choice, Quot.sound

## C139

* `Verif.PolySet.C139_read`: propext, Classical.choice, Quot.sound
* `Verif.PolySet.C139_last_point_violated`: propext, Classical.choice, Quot.sound
* `Verif.PolySet.C139_round_trip_partial`: propext, Classical.choice, Quot.sound
* `Verif.PolySet.C139_closed_violated`: propext

## C140

* `Verif.PolySet.C140_read`: propext, Quot.sound
* `Verif.PolySet.C140_first_point_violated`: propext, Quot.sound
* `Verif.PolySet.C140_round_trip_partial`: propext, Quot.sound
* `Verif.PolySet.C140_closed_violated`: propext, Classical.choice, Quot.sound
* `Verif.PolySet.C140_repeated_first_violated`: propext, Quot.sound

## C141

* `Verif.Surface.C141_irregular_mesh`: propext, Classical.choice, Quot.sound
* `Verif.Surface.C141_irregular_mesh_refused`: propext, Quot.sound
* `Verif.Surface.C141_torn_mesh`: propext, Classical.choice, Quot.sound
* `Verif.Surface.C141_cover`: propext, Classical.choice, Quot.sound
* `Verif.Surface.C141_no_overlap`: propext, Classical.choice, Quot.sound

## C142

* `Verif.Surface.C142_sparse_mesh`: propext, Classical.choice, Quot.sound

## C143

* `Verif.Surface.C143_faces`: propext, Quot.sound
* `Verif.Surface.C143_closed`: propext, Quot.sound
* `Verif.Surface.C143_index`: propext, Classical.choice, Quot.sound
* `Verif.Surface.C143_many_cells`: propext, Classical.choice, Quot.sound
* `Verif.Surface.C143_face_index_violated`: none

## C144

* `Verif.Surface.C144_trimmed`: propext, Classical.choice, Quot.sound
* `Verif.Surface.C144_refused`: propext

## C145

* `Verif.Surface.C145_split`: propext, Classical.choice, Quot.sound
* `Verif.Surface.C145_sides`: propext, Quot.sound

## C146

* `Verif.Surface.C146_composite`: propext, Quot.sound
* `Verif.Surface.C146_surface_index`: propext, Classical.choice, Quot.sound
* `Verif.Surface.C146_combined`: propext, Classical.choice, Quot.sound
* `Verif.Surface.C146_history_partial`: propext
* `Verif.Surface.C146_repopulated_violated`: none
* `Verif.Surface.C146_multi_violated`: none

## C147

* `Verif.Surface.C147_sail_triangles`: propext, Classical.choice, Quot.sound
* `Verif.Surface.C147_sail_points`: propext, Classical.choice, Quot.sound

## C148

* `Verif.Surface.C148_plane`: propext, Classical.choice, Quot.sound

## C149

* `Verif.Surface.C149_rescale`: propext, Quot.sound
* `Verif.Surface.C149_rescale_least_partial`: propext, Quot.sound
* `Verif.Surface.C149_just_loaded_violated`: propext, Quot.sound

## C150

* `Verif.Surface.C150_tsurf`: propext, Classical.choice, Quot.sound
* `Verif.Surface.C150_out_of_sequence`: propext, Quot.sound
* `Verif.Surface.C150_in_range`: propext, Quot.sound

## C151

* `Verif.Organize.C151_reuse`: propext, Classical.choice, Quot.sound
* `Verif.Organize.C151_feature`: propext, Classical.choice, Quot.sound
* `Verif.Organize.C151_feature_twice`: propext, Classical.choice, Quot.sound
* `Verif.Organize.C151_never_reused_violated`: propext, Classical.choice, Quot.sound
* `Verif.Organize.C151_unloadable_violated`: propext, Classical.choice, Quot.sound
* `Verif.Organize.C151_generic_violated`: propext, Classical.choice, Quot.sound

## C152

* `Verif.Organize.C152_feature`: propext, Classical.choice, Quot.sound
* `Verif.Organize.C152_boundary_interpretation`: propext, Classical.choice, Quot.sound
* `Verif.Organize.C152_horizon`: propext, Classical.choice, Quot.sound
* `Verif.Organize.C152_geobody_boundary`: propext, Classical.choice, Quot.sound
* `Verif.Organize.C152_earth_model`: propext, Classical.choice, Quot.sound
* `Verif.Organize.C152_geobody`: propext, Classical.choice, Quot.sound
* `Verif.Organize.C152_wellbore`: propext, Classical.choice, Quot.sound
* `Verif.Organize.C152_geologic_unit`: propext, Classical.choice, Quot.sound
* `Verif.Organize.C152_fault_partial`: propext, Classical.choice, Quot.sound
* `Verif.Organize.C152_fault_violated`: propext, Classical.choice, Quot.sound
* `Verif.Organize.C152_azimuth_violated`: propext, Classical.choice, Quot.sound
* `Verif.Organize.C152_stratigraphic_unit_violated`: propext, Classical.choice, Quot.sound
* `Verif.Organize.C152_thickness_violated`: propext, Classical.choice, Quot.sound

## C153

* `Verif.Organize.C153_feature`: propext, Classical.choice, Quot.sound
* `Verif.Organize.C153_horizon`: propext, Classical.choice, Quot.sound
* `Verif.Organize.C153_geobody_boundary`: propext, Classical.choice, Quot.sound
* `Verif.Organize.C153_earth_model`: propext, Classical.choice, Quot.sound
* `Verif.Organize.C153_boundary_interpretation`: propext, Classical.choice, Quot.sound
* `Verif.Organize.C153_geobody_partial`: propext, Classical.choice, Quot.sound
* `Verif.Organize.C153_geobody_violated`: propext, Classical.choice, Quot.sound
* `Verif.Organize.C153_generic`: propext, Classical.choice, Quot.sound
* `Verif.Organize.C153_wellbore`: propext, Classical.choice, Quot.sound
* `Verif.Organize.C153_fault_partial`: propext, Classical.choice, Quot.sound
* `Verif.Organize.C153_fault_violated`: propext, Classical.choice, Quot.sound
* `Verif.Organize.C153_geologic_unit`: propext, Classical.choice, Quot.sound
* `Verif.Organize.C153_stratigraphic_unit`: propext, Classical.choice, Quot.sound
* `Verif.Organize.C153_fault_default`: propext, Classical.choice, Quot.sound
* `Verif.Organize.C153_composition_held`: propext, Classical.choice, Quot.sound
* `Verif.Organize.C153_composition_written`: propext, Classical.choice, Quot.sound
* `Verif.Organize.C153_thickness_units`: propext, Classical.choice, Quot.sound

## C154

* `Verif.Organize.C154_units`: propext, Classical.choice, Quot.sound
* `Verif.Organize.C154_units_accepted`: propext, Classical.choice, Quot.sound
* `Verif.Organize.C154_contacts`: propext, Classical.choice, Quot.sound
* `Verif.Organize.C154_contacts_refused`: propext, Quot.sound
* `Verif.Organize.C154_contacts_accepted`: propext, Quot.sound
* `Verif.Organize.C154_add_ranks`: propext, Classical.choice, Quot.sound
* `Verif.Organize.C154_contact_checked`: propext, Quot.sound
* `Verif.Organize.C154_rank_stored`: propext, Classical.choice, Quot.sound
* `Verif.Organize.C154_column_stored`: propext, Classical.choice, Quot.sound
* `Verif.Organize.C154_rank_reuse_violated`: propext, Classical.choice, Quot.sound
* `Verif.Organize.C154_column_equivalent`: propext, Classical.choice, Quot.sound
* `Verif.Organize.C154_column_reuse`: propext, Classical.choice, Quot.sound

## C155

* `Verif.Frame.C155_interval_for_md`: propext, Classical.choice, Quot.sound
* `Verif.Frame.C155_found_again`: propext, Classical.choice, Quot.sound

## C156

* `Verif.Frame.C156_cell`: propext, Classical.choice, Quot.sound
* `Verif.Frame.C156_well`: propext, Classical.choice, Quot.sound
* `Verif.Frame.C156_cell_fractions`: propext, Classical.choice, Quot.sound
* `Verif.Frame.C156_interval_fractions`: propext, Classical.choice, Quot.sound

## C157

* `Verif.Frame.C157_length`: propext, Classical.choice, Quot.sound
* `Verif.Frame.C157_active_partial`: propext, Classical.choice, Quot.sound
* `Verif.Frame.C157_active_violated`: propext, Classical.choice, Quot.sound
* `Verif.Frame.C157_dominant`: propext, Classical.choice, Quot.sound
* `Verif.Frame.C157_kh`: propext, Classical.choice, Quot.sound
* `Verif.Frame.C157_kh_conserved`: propext, Classical.choice, Quot.sound
* `Verif.Frame.C157_skin_partial`: propext, Classical.choice, Quot.sound
* `Verif.Frame.C157_skin_violated`: propext, Classical.choice, Quot.sound
* `Verif.Frame.C157_radius_partial`: propext, Classical.choice, Quot.sound
* `Verif.Frame.C157_radius_violated`: propext, Classical.choice, Quot.sound

## C158

* `Verif.ArrayFile.C158_ints`: propext, Classical.choice, Quot.sound
* `Verif.ArrayFile.C158_bools`: propext, Classical.choice, Quot.sound
* `Verif.ArrayFile.C158_reals`: propext, Classical.choice, Quot.sound
* `Verif.ArrayFile.C158_reals_exact`: propext, Classical.choice, Quot.sound
* `Verif.ArrayFile.C158_among`: propext, Classical.choice, Quot.sound
* `Verif.ArrayFile.C158_headers_violated`: propext, Classical.choice, Quot.sound

## C159

* `Verif.ArrayFile.C159_too_few`: propext, Classical.choice, Quot.sound
* `Verif.ArrayFile.C159_too_many_partial`: propext, Classical.choice, Quot.sound
* `Verif.ArrayFile.C159_too_many_violated`: propext, Classical.choice, Quot.sound
* `Verif.ArrayFile.C159_comments`: propext, Classical.choice, Quot.sound

## C160

* `Verif.ArrayFile.C160_as_text`: propext, Quot.sound
* `Verif.ArrayFile.C160_keyword_violated`: propext, Classical.choice, Quot.sound
* `Verif.ArrayFile.C160_bools_partial`: propext, Quot.sound
* `Verif.ArrayFile.C160_bools_violated`: none
* `Verif.ArrayFile.C160_bytes`: propext, Classical.choice, Quot.sound

## C161

* `Verif.RegGrid.C161_create`: propext, Classical.choice, Quot.sound
* `Verif.RegGrid.C161_calls`: propext, Classical.choice, Quot.sound
* `Verif.RegGrid.C161_shared`: propext, Quot.sound
* `Verif.RegGrid.C161_slices_partial`: propext, Classical.choice, Quot.sound
* `Verif.RegGrid.C161_slices_violated`: propext, Classical.choice, Quot.sound

## C162

* `Verif.RegGrid.C162_centre`: propext, Classical.choice, Quot.sound
* `Verif.RegGrid.C162_columns`: propext, Classical.choice, Quot.sound

## C163

* `Verif.RegGrid.C163_box_partial`: propext, Classical.choice, Quot.sound
* `Verif.RegGrid.C163_box_violated`: propext, Classical.choice, Quot.sound

## C164

* `Verif.RegGrid.C164_find_partial`: propext, Classical.choice, Quot.sound
* `Verif.RegGrid.C164_find_violated`: propext, Classical.choice, Quot.sound

## C165

* `Verif.RegGrid.C165_lattice`: propext, Classical.choice, Quot.sound
* `Verif.RegGrid.C165_unaligned`: propext, Quot.sound
* `Verif.RegGrid.C165_zero_violated`: propext, Classical.choice, Quot.sound
* `Verif.RegGrid.C165_accepted`: propext, Classical.choice, Quot.sound
* `Verif.RegGrid.C165_lengths_partial`: propext, Classical.choice, Quot.sound
* `Verif.RegGrid.C165_rotated_violated`: propext, Classical.choice, Quot.sound

## C166

* `Verif.RegGrid.C166_stored_partial`: propext, Classical.choice, Quot.sound
* `Verif.RegGrid.C166_new_violated`: propext, Classical.choice, Quot.sound
* `Verif.RegGrid.C166_irregular_partial`: propext, Classical.choice, Quot.sound
* `Verif.RegGrid.C166_no_crs_violated`: propext, Classical.choice, Quot.sound
* `Verif.RegGrid.C166_rotated_violated`: propext, Classical.choice, Quot.sound

## C167

* `Verif.RegGrid.C167_first_layer_partial`: propext, Quot.sound
* `Verif.RegGrid.C167_thickness_violated`: propext, Classical.choice, Quot.sound

## C168

* `Verif.RegGrid.C168_volume_partial`: propext, Classical.choice, Quot.sound
* `Verif.RegGrid.C168_aligned`: propext, Classical.choice, Quot.sound
* `Verif.RegGrid.C168_skew_violated`: propext, Classical.choice, Quot.sound

## C169

* `Verif.Mesh.C169_points`: propext, Classical.choice, Quot.sound
* `Verif.Mesh.C169_accepted`: propext, Classical.choice, Quot.sound

## C170

* `Verif.Mesh.C170_stored`: propext, Classical.choice, Quot.sound
* `Verif.Mesh.C170_history`: propext, Classical.choice, Quot.sound
* `Verif.Mesh.C170_refused`: propext, Classical.choice, Quot.sound
* `Verif.Mesh.C170_xy_violated`: propext, Classical.choice, Quot.sound

## C171

* `Verif.Mesh.C171_columns`: propext, Classical.choice, Quot.sound

## C172

* `Verif.Mesh.C172_fields`: propext
* `Verif.Mesh.C172_zmap`: propext, Classical.choice, Quot.sound
* `Verif.Mesh.C172_rms`: propext, Classical.choice, Quot.sound
* `Verif.Mesh.C172_long`: propext, Classical.choice, Quot.sound
* `Verif.Mesh.C172_short_violated`: propext, Classical.choice, Quot.sound
* `Verif.Mesh.C172_unmarked`: propext, Classical.choice, Quot.sound
* `Verif.Mesh.C172_endless_violated`: propext, Classical.choice, Quot.sound

## C173

* `Verif.Mesh.C173_file`: propext, Classical.choice, Quot.sound
* `Verif.Mesh.C173_regular_violated`: propext, Classical.choice, Quot.sound
* `Verif.Mesh.C173_reference_violated`: propext, Classical.choice, Quot.sound

## C174

* `Verif.Marker.C174_stored`: propext, Classical.choice, Quot.sound
* `Verif.Marker.C174_refused`: propext, Quot.sound
* `Verif.Marker.C174_count_violated`: propext, Classical.choice, Quot.sound
* `Verif.Marker.C174_find`: propext, Classical.choice, Quot.sound
* `Verif.Marker.C174_at`: propext, Quot.sound
* `Verif.Marker.C174_new`: propext, Quot.sound
* `Verif.Marker.C174_kind`: propext, Classical.choice, Quot.sound
* `Verif.Marker.C174_find_missing`: propext, Classical.choice, Quot.sound

## C175

* `Verif.Marker.C175_import`: propext, Classical.choice, Quot.sound
* `Verif.Marker.C175_same`: propext, Classical.choice, Quot.sound
* `Verif.Marker.C175_depths_violated`: propext, Classical.choice, Quot.sound
* `Verif.Marker.C175_geobody_violated`: propext, Classical.choice, Quot.sound
* `Verif.Marker.C175_not_created`: propext, Classical.choice, Quot.sound

## C176

* `Verif.Marker.C176_round_trip_partial`: propext, Classical.choice, Quot.sound
* `Verif.Marker.C176_blank_violated`: propext, Classical.choice, Quot.sound
* `Verif.Marker.C176_fluid_violated`: propext, Classical.choice, Quot.sound

## C177

* `Verif.Marker.C177_frame`: propext, Classical.choice, Quot.sound
* `Verif.Marker.C177_frame_short`: propext, Quot.sound
* `Verif.Marker.C177_frame_refused`: propext
* `Verif.Marker.C177_datum`: propext, Classical.choice, Quot.sound
* `Verif.Marker.C177_datum_refused`: propext, Classical.choice, Quot.sound
* `Verif.Marker.C177_equivalent`: propext, Classical.choice, Quot.sound
* `Verif.Marker.C177_equivalent_violated`: propext, Classical.choice, Quot.sound

## C178

* `Verif.Stencil.C178_adjacent`: propext, Classical.choice, Quot.sound
* `Verif.Stencil.C178_disc`: propext, Classical.choice, Quot.sound
* `Verif.Stencil.C178_normalized`: propext, Classical.choice, Quot.sound
* `Verif.Stencil.C178_plain`: propext, Quot.sound
* `Verif.Stencil.C178_refused`: propext, Quot.sound
* `Verif.Stencil.C178_patterns`: propext, Classical.choice, Quot.sound

## C179

* `Verif.Stencil.C179_convolution`: propext, Classical.choice, Quot.sound
* `Verif.Stencil.C179_title_violated`: propext, Quot.sound

## C180

* `Verif.Stencil.C180_mean`: propext, Classical.choice, Quot.sound
* `Verif.Stencil.C180_bounds`: propext, Classical.choice, Quot.sound
* `Verif.Stencil.C180_defined`: propext, Classical.choice, Quot.sound
* `Verif.Stencil.C180_plane`: propext, Classical.choice, Quot.sound

## C181

* `Verif.Wellspec.C181_wells`: propext, Classical.choice, Quot.sound
* `Verif.Wellspec.C181_refused`: propext, Classical.choice, Quot.sound

## C182

* `Verif.Wellspec.C182_dates_partial`: propext, Classical.choice, Quot.sound
* `Verif.Wellspec.C182_first_partial`: propext, Classical.choice, Quot.sound
* `Verif.Wellspec.C182_once_partial`: propext, Classical.choice, Quot.sound
* `Verif.Wellspec.C182_carry_violated`: propext, Classical.choice, Quot.sound
* `Verif.Wellspec.C182_date_list`: propext, Quot.sound

## C183

* `Verif.Wellspec.C183_table_partial`: propext, Classical.choice, Quot.sound
* `Verif.Wellspec.C183_letter_violated`: propext, Classical.choice, Quot.sound

## C184

* `Verif.Wellspec.C184_none`: propext, Classical.choice, Quot.sound
* `Verif.Wellspec.C184_table_partial`: propext, Classical.choice, Quot.sound
* `Verif.Wellspec.C184_key_violated`: propext, Classical.choice, Quot.sound
* `Verif.Wellspec.C184_status_violated`: propext, Classical.choice, Quot.sound
* `Verif.Wellspec.C184_wells`: propext, Classical.choice, Quot.sound
* `Verif.Wellspec.C184_unknown`: propext, Classical.choice, Quot.sound
* `Verif.Wellspec.C184_columns`: propext, Classical.choice, Quot.sound
* `Verif.Wellspec.C184_all_tables`: propext, Classical.choice, Quot.sound

## C185

* `Verif.Multi.C185_schedule`: propext, Classical.choice, Quot.sound
* `Verif.Multi.C185_success`: propext, Classical.choice, Quot.sound
* `Verif.Multi.C185_required`: propext, Classical.choice, Quot.sound
* `Verif.Multi.C185_recombined`: propext, Classical.choice, Quot.sound
* `Verif.Multi.C185_transient`: propext, Classical.choice, Quot.sound
* `Verif.Multi.C185_never`: propext, Classical.choice, Quot.sound
* `Verif.Multi.C185_no_list_violated`: propext, Classical.choice, Quot.sound
* `Verif.Multi.C185_kinds`: propext, Classical.choice, Quot.sound
* `Verif.Multi.C185_kinds_named`: propext, Classical.choice, Quot.sound

## C186

* `Verif.Multi.C186_atomic`: propext, Classical.choice, Quot.sound
* `Verif.Multi.C186_kept_partial`: propext, Classical.choice, Quot.sound
* `Verif.Multi.C186_lost_violated`: propext, Classical.choice, Quot.sound
* `Verif.Multi.C186_left_violated`: propext, Classical.choice, Quot.sound
* `Verif.Multi.C186_end`: propext, Classical.choice, Quot.sound

## C187

* `Verif.Defined.C187_cells`: propext, Classical.choice, Quot.sound
* `Verif.Defined.C187_points`: propext, Classical.choice, Quot.sound
* `Verif.Defined.C187_pillars_partial`: propext, Classical.choice, Quot.sound
* `Verif.Defined.C187_nullify_violated`: propext, Classical.choice, Quot.sound
* `Verif.Defined.C187_inactive`: propext, Classical.choice, Quot.sound
* `Verif.Defined.C187_active_violated`: propext, Classical.choice, Quot.sound
* `Verif.Defined.C187_split_violated`: propext, Classical.choice, Quot.sound
* `Verif.Defined.C187_dots_violated`: propext, Classical.choice, Quot.sound
* `Verif.Defined.C187_dots_partial`: propext, Classical.choice, Quot.sound
* `Verif.Defined.C187_dots_gaps`: propext, Classical.choice, Quot.sound

## C188

* `Verif.Defined.C188_completed`: propext, Classical.choice, Quot.sound
* `Verif.Defined.C188_succeeds`: propext, Classical.choice, Quot.sound

## C189

* `Verif.Defined.C189_all_defined`: propext, Classical.choice, Quot.sound
* `Verif.Defined.C189_kept`: propext, Classical.choice, Quot.sound
* `Verif.Defined.C189_inactive`: propext, Classical.choice, Quot.sound
* `Verif.Defined.C189_last_row_violated`: propext, Classical.choice, Quot.sound
* `Verif.Defined.C189_last_column_violated`: propext, Classical.choice, Quot.sound
* `Verif.Defined.C189_only_last_row_violated`: propext, Classical.choice, Quot.sound
* `Verif.Defined.C189_step_violated`: propext, Classical.choice, Quot.sound

## C190

* `Verif.Defined.C190_cells`: propext, Quot.sound
* `Verif.Defined.C190_pillars_partial`: propext, Quot.sound
* `Verif.Defined.C190_uncached_violated`: propext
* `Verif.Defined.C190_nothing_stored_violated`: propext
* `Verif.Defined.C190_missing_point_violated`: propext, Classical.choice, Quot.sound

## C191

* `Verif.RelPerm.C191_accepted`: propext, Classical.choice, Quot.sound
* `Verif.RelPerm.C191_kept`: propext, Classical.choice, Quot.sound
* `Verif.RelPerm.C191_phases`: propext, Classical.choice, Quot.sound
* `Verif.RelPerm.C191_other_phases`: propext, Classical.choice, Quot.sound
* `Verif.RelPerm.C191_any_case`: propext

## C192

* `Verif.RelPerm.C192_node`: propext, Classical.choice, Quot.sound
* `Verif.RelPerm.C192_between`: propext, Classical.choice, Quot.sound
* `Verif.RelPerm.C192_outside`: propext, Classical.choice, Quot.sound
* `Verif.RelPerm.C192_range`: propext, Classical.choice, Quot.sound
* `Verif.RelPerm.C192_monotone`: propext, Classical.choice, Quot.sound
* `Verif.RelPerm.C192_missing_violated`: propext, Classical.choice, Quot.sound
* `Verif.RelPerm.C192_case_violated`: propext, Classical.choice, Quot.sound

## C193

* `Verif.RelPerm.C193_round_trip_partial`: propext, Classical.choice, Quot.sound
* `Verif.RelPerm.C193_appended`: propext, Classical.choice, Quot.sound
* `Verif.RelPerm.C193_oil_violated`: propext, Classical.choice, Quot.sound
* `Verif.RelPerm.C193_all_missing_violated`: propext, Classical.choice, Quot.sound
* `Verif.RelPerm.C193_low_salinity_violated`: propext, Classical.choice, Quot.sound

## C194

* `Verif.DataTable.C194_history_partial`: propext, Classical.choice, Quot.sound
* `Verif.DataTable.C194_other_realization`: propext, Classical.choice, Quot.sound
* `Verif.DataTable.C194_kept`: propext, Classical.choice, Quot.sound
* `Verif.DataTable.C194_lookup_title_violated`: propext, Classical.choice, Quot.sound
* `Verif.DataTable.C194_several_tables`: propext, Quot.sound

## C195

* `Verif.DataTable.C195_not_square_violated`: propext, Quot.sound
* `Verif.DataTable.C195_new_realization_violated`: propext, Classical.choice, Quot.sound
* `Verif.DataTable.C195_column_unit_violated`: propext
* `Verif.DataTable.C195_lookup_uuid_violated`: propext, Quot.sound

## C196

* `Verif.DataTable.C196_time_tables`: propext, Classical.choice, Quot.sound
* `Verif.DataTable.C196_listed`: propext, Classical.choice, Quot.sound
* `Verif.DataTable.C196_by_title`: propext, Classical.choice, Quot.sound

## C197

* `Verif.FaultTable.C197_read`: propext, Classical.choice, Quot.sound

## C198

* `Verif.FaultTable.C198_text_read`: propext, Classical.choice, Quot.sound
* `Verif.FaultTable.C198_written_faces`: propext, Classical.choice, Quot.sound
* `Verif.FaultTable.C198_written_multipliers_partial`: propext, Classical.choice, Quot.sound
* `Verif.FaultTable.C198_mark_violated`: propext, Classical.choice, Quot.sound

## C199

* `Verif.FindFaults.C199_zero`: propext, Classical.choice, Quot.sound
* `Verif.FindFaults.C199_same_fault`: propext, Classical.choice, Quot.sound
* `Verif.FindFaults.C199_listed_partial`: propext, Classical.choice, Quot.sound
* `Verif.FindFaults.C199_all_split_violated`: propext, Classical.choice, Quot.sound

## C200

* `Verif.FindFaults.C200_throw_j`: propext, Classical.choice, Quot.sound
* `Verif.FindFaults.C200_throw_i_violated`: propext, Classical.choice, Quot.sound
* `Verif.FindFaults.C200_opposite`: propext, Classical.choice, Quot.sound
* `Verif.FindFaults.C200_uniform`: propext, Classical.choice, Quot.sound
* `Verif.FindFaults.C200_orders`: propext, Classical.choice, Quot.sound
* `Verif.FindFaults.C200_modes_partial`: propext, Classical.choice, Quot.sound
* `Verif.FindFaults.C200_minimum_violated`: propext, Classical.choice, Quot.sound

## C201

* `Verif.Aps.C201_first`: propext, Classical.choice, Quot.sound
* `Verif.Aps.C201_items_partial`: propext, Classical.choice, Quot.sound
* `Verif.Aps.C201_exception`: propext, Classical.choice, Quot.sound
* `Verif.Aps.C201_repeated_violated`: propext, Classical.choice, Quot.sound
* `Verif.Aps.C201_reserved_violated`: propext, Classical.choice, Quot.sound

## C202

* `Verif.Aps.C202_time_realization`: propext, Quot.sound
* `Verif.Aps.C202_no_blank`: propext, Quot.sound
* `Verif.Aps.C202_collision_violated`: propext, Quot.sound

## C203

* `Verif.GridCache.C203_uuid`: propext, Classical.choice, Quot.sound
* `Verif.GridCache.C203_shared`: propext, Classical.choice, Quot.sound
* `Verif.GridCache.C203_main`: propext, Quot.sound
* `Verif.GridCache.C203_main_first`: propext, Classical.choice, Quot.sound
* `Verif.GridCache.C203_title_partial`: propext, Classical.choice, Quot.sound
* `Verif.GridCache.C203_root_title_violated`: propext, Classical.choice, Quot.sound
* `Verif.GridCache.C203_one_object_partial`: propext, Quot.sound
* `Verif.GridCache.C203_hidden_violated`: propext, Classical.choice, Quot.sound

## C204

* `Verif.PropKind.C204_kept`: propext, Quot.sound
* `Verif.PropKind.C204_created_partial`: propext, Classical.choice, Quot.sound
* `Verif.PropKind.C204_reused`: propext, Classical.choice, Quot.sound
* `Verif.PropKind.C204_unit_violated`: propext, Quot.sound
* `Verif.PropKind.C204_any_unit_violated`: propext, Quot.sound
* `Verif.PropKind.C204_zone`: propext, Classical.choice, Quot.sound
* `Verif.PropKind.C204_zone_violated`: propext

## C205

* `Verif.Ensemble.C205_from_cases`: propext, Quot.sound
* `Verif.Ensemble.C205_all_gathered_partial`: propext, Quot.sound
* `Verif.Ensemble.C205_same_uuid_violated`: propext, Classical.choice, Quot.sound
* `Verif.Ensemble.C205_lookup`: propext, Classical.choice, Quot.sound
* `Verif.Ensemble.C205_shared_objects`: propext, Quot.sound
* `Verif.Ensemble.C205_placed`: propext, Quot.sound
* `Verif.Ensemble.C205_gathers`: propext, Quot.sound
* `Verif.Ensemble.C205_unmatched`: propext, Quot.sound
* `Verif.Ensemble.C205_titles_violated`: propext, Quot.sound
* `Verif.Ensemble.C205_own_grids`: propext, Quot.sound
* `Verif.Ensemble.C205_separate`: propext, Quot.sound
* `Verif.Ensemble.C205_separate_gathers`: propext, Quot.sound
* `Verif.Ensemble.C205_apart_kept`: propext, Quot.sound
* `Verif.Ensemble.C205_apart`: propext, Quot.sound
* `Verif.Ensemble.C205_apart_series_violated`: propext, Quot.sound

## C206

* `Verif.GeoTime.C206_from_years`: propext, Classical.choice, Quot.sound
* `Verif.GeoTime.C206_load`: propext, Classical.choice, Quot.sound
* `Verif.GeoTime.C206_round_trip`: propext, Classical.choice, Quot.sound
* `Verif.GeoTime.C206_foreign`: propext, Classical.choice, Quot.sound
* `Verif.GeoTime.C206_timestamp`: propext, Classical.choice, Quot.sound
* `Verif.GeoTime.C206_index`: propext, Classical.choice, Quot.sound
* `Verif.GeoTime.C206_millions_partial`: propext, Classical.choice, Quot.sound
* `Verif.GeoTime.C206_positive_violated`: propext, Classical.choice, Quot.sound
* `Verif.GeoTime.C206_index_string_violated`: propext, Classical.choice, Quot.sound
* `Verif.GeoTime.C206_equivalent`: propext
* `Verif.GeoTime.C206_selected_partial`: propext, Classical.choice, Quot.sound
* `Verif.GeoTime.C206_selected_violated`: propext, Classical.choice, Quot.sound
* `Verif.GeoTime.C206_merge_violated`: propext

## C207

* `Verif.GridKind.C207_foreign_ijk`: propext, Classical.choice, Quot.sound
* `Verif.GridKind.C207_foreign_unstructured`: propext, Classical.choice, Quot.sound
* `Verif.GridKind.C207_round_trip_partial`: propext, Classical.choice, Quot.sound
* `Verif.GridKind.C207_grid`: propext
* `Verif.GridKind.C207_regular`: propext
* `Verif.GridKind.C207_no_geometry_violated`: propext, Classical.choice, Quot.sound
* `Verif.GridKind.C207_vertical_violated`: propext, Classical.choice, Quot.sound
* `Verif.GridKind.C207_general_violated`: propext
* `Verif.GridKind.C207_no_lengths_violated`: propext
* `Verif.GridKind.C207_irregular_violated`: propext
