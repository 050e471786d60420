# Axioms of the property theorems

Generated with `#print axioms` for each theorem in `MANIFEST.json`.

## none (24 theorems)

* Verif.FConv: count_values_violated, hex_multibyte_violated, int32_overflow_violated, list_tokens_violated, string_list_violated
* Verif.FEvent: errors_violated, event_violated
* Verif.FExtra: clone_merge_violated, set_content
* Verif.FFx: find_platform_violated
* Verif.FInst: skeleton_null_violated
* Verif.FJoint: no_scene_violated, no_skin
* Verif.FLoad: load_count_violated, stop_last_violated, stop_once_violated
* Verif.FPass: state_clone_refused
* Verif.FPhys: set_rigid_body
* Verif.FPlugin: plug_unnamed
* Verif.FScheme: clone_null_violated, openers_loop_violated, set_twice_violated
* Verif.FTree: map_prev_end_undefined
* Verif.XmlSort: text_violated

## propext (97 theorems)

* Verif.Enum: blendMode_names, geometryInput_names, infinity_names, interpolation_names, morphMethod_names, passStateBlendEquation_names, passStateBlendType_names, passStateFaceType_names, passStateFogCoordinateType_names, passStateFogType_names, passStateFrontFaceType_names, passStateFunction_names, passStateLightModelColorControlType_names, passStateLogicOperation_names, passStateMaterialType_names, passStatePolygonMode_names, passStateShadeModel_names, passStateStencilOperation_names, passState_names, profileType_names, splineForm_names, splineType_names, textureChannel_read, textureFilter_partial, textureFilter_violated, textureWrapMode_names, unnamed_values
* Verif.FAnim: clone_new, set_time_cycle_violated
* Verif.FArc: channels_found, technique_code_found
* Verif.FConv: datetime_other_length, interleaved_violated, qualifier_none
* Verif.FCtrl: set_geometry_same_violated
* Verif.FEff: find_all, find_null_violated
* Verif.FEnt: asset_clone_into_partial, asset_clone_into_violated, camera_clone_violated, contributor_empty, entity_asset_violated, entity_clone_partial, released_target_violated
* Verif.FExtra: clone_default_violated, clone_name_violated, empty_name_violated, find_parameter_violated, mixed_violated, names_violated
* Verif.FFx: find_platform_partial, number_types, overwrite_other, overwrite_sampler_violated
* Verif.FHull: hull_circle_violated, hull_origin
* Verif.FInfl: nothing_packed_violated
* Verif.FMat: clone_finds_partial, clone_into_partial, clone_into_stale_violated, clone_material_null_violated, clone_material_partial, clone_name_violated, clone_new_partial, clone_null_entity_violated, clone_parent_violated
* Verif.FPack: pack_reuse_violated
* Verif.FPath: strip_name_violated
* Verif.FPhys: constraint_clone_partial, materials_violated, one_own_reach, shape_clone_material
* Verif.FPoly: triangulate_lines
* Verif.FRef: set_null_violated, set_uri_violated, two_copies_violated
* Verif.FSample: values_sampled
* Verif.FScalar: clamp_range, component_clamp, component_swapped
* Verif.FSpline: bezier_valid_partial, empty_bezier_violated, geometry_one, nurbs_add_cv
* Verif.FStr: string_append_after_clear_violated, string_append_after_substr_violated, string_find_last_of_violated, string_insert_self_violated, string_resize_fill_violated
* Verif.FTex: image_gone_violated
* Verif.FVec: vector_insert_own_violated
* Verif.FVer: version_violated
* Verif.FXml: content_violated
* Verif.Geo: box_equals, box_overlaps_symm, transform_product, translation_scale

## propext, Quot.sound (142 theorems)

* Verif.Crc32: crc_detects_bit_burst, crc_table_generated
* Verif.Curve: collapse_partial, history_offset
* Verif.FAnim: curves_results, custom_copy
* Verif.FAnimList: erase_pointer_violated, insert_pointer_violated, resize_value_violated
* Verif.FArc: array_indices, attach_order_violated, driver_report_violated, drivers_linked, flag_violated, sampler_linked, sampler_nearest, sampler_scope_violated, shader_code_kept, texture_image_direct
* Verif.FBld: builder_constructors, builder_index_violated, builder_rindex_partial, builder_rindex_violated, builder_u64_violated
* Verif.FConv: count_values_partial, datetime_violated, parsers_stay_inside_partial, split_target_violated
* Verif.FCtrl: add_target_positions_violated
* Verif.FEff: find_first, find_one_of_all, opacity_partial, profile_found
* Verif.FEnt: camera_aspect_partial, camera_zero_violated
* Verif.FEvent: errors_partial, event_partial, log_counts, simple_handler
* Verif.FExtra: add_parameter, clone_into, find_parameters, has_content
* Verif.FFit: fit_hole_violated, fit_large_violated, fit_offset_violated, fit_prim_violated
* Verif.FFx: clone_other_class, find_profile
* Verif.FHull: hull_found, hull_hash_violated, hull_link_defined, hull_others_kept
* Verif.FInfl: unused_vertex_violated
* Verif.FInst: roots_minimal_violated
* Verif.FIter: cycle_violated, deep_violated, preorder_violated, visit_all
* Verif.FJoint: extern_violated, shift_violated
* Verif.FLinkData: count_raised_violated, external_skin_violated, imports_completed_partial, nothing_left_partial
* Verif.FLoad: load_all, load_driver_violated, load_hidden_violated, load_part, load_status, load_status_partial, load_stopped_partial, load_stops, load_success
* Verif.FMat: add_bound_partial, bindings, bound_found_partial, find_material, generated_distinct_partial, null_violated, target_partial
* Verif.FMesh: add_vertex_source_violated, clone_offset_violated, clone_prim_violated, clone_twice_violated
* Verif.FPack: largest_index
* Verif.FPass: add_binding, clone_code
* Verif.FPath: extension_long_violated, extension_partial, folder_partial, stack_history, strip_long_violated, strip_partial
* Verif.FPhys: analytical_clone_partial, bounding_volume_unique, mesh_volume_partial, one_geometry_partial, other_volume
* Verif.FPlugin: plug_last, plug_missing_violated, plug_nodes_violated, plug_save_load_partial
* Verif.FPoly: empty_face_violated, mesh_offsets, remove_holes_violated, remove_second_violated, remove_third_violated
* Verif.FReg: all_documents, all_documents_violated, all_linked_partial, open_keeps, open_linked, open_right
* Verif.FSample: node_moved_violated
* Verif.FScheme: remove_all, resolved
* Verif.FSpline: closed_small_violated, linear_to_bezier_violated, linear_too_short_violated, total_cvs
* Verif.FStr: string_find_char_partial, string_find_first_of_partial, string_find_first_of_violated, string_find_last_of_partial, string_find_negative_violated, string_find_npos_violated
* Verif.FUnify: buffer_violated, reset_violated, twice_violated
* Verif.FVec: vector_lifetime_violated
* Verif.FVer: version_parse_partial
* Verif.FXml: clean_valid, uri_escape_violated
* Verif.Geo: box_contains, box_grows, box_include, box_reset_box, box_reset_partial
* Verif.XmlSort: inserted, names_order, place_partial

## propext, Classical.choice, Quot.sound (771 theorems)

* Verif.Base64: base64_decode_safe_partial, base64_decode_safe_violated, base64_roundtrip, base64_roundtrip_empty_violated, base64_trailing_blank_violated, encode_is_rfc4648, encode_length
* Verif.Crc32: crc32_is_standard, crc_detects_burst, crc_detects_four_bytes
* Verif.Curve: add_clip_violated, add_key, at_key_partial, at_last, bezier_segment, bezier_shift_violated, bezier_violated, changed_offset_violated, clone_selected_violated, clone_violated, collapse_average_partial, collapse_violated, constant_infinity, cycle_infinity, cycle_relative_infinity, defined, history_sorted, linear_infinity_partial, linear_segment, merge_exact, merge_order_violated, merge_partial, merge_single, merged_bezier_violated, merged_default_violated, merged_infinity_violated, merged_sample_partial, merged_step_violated, move_samples_partial, oscillate_infinity, pre_linear_violated, same_time_violated, select_offset, select_samples_partial, shift_samples, step_segment, step_violated, tcb_violated, times_partial, times_violated, values_offset_violated, values_partial, values_tcb_violated
* Verif.FAnim: add_curve_violated, clone_into, curves_step, custom_resize, find_index, find_listed, find_qualifier, matrix_range_violated, multi_curve_partial, qualifier_partial, sampled_unique, set_time_partial, skew_qualifier_violated
* Verif.FAnimList: get_animated, list_helpers_partial, pointers_partial
* Verif.FArc: animator_partial, array_violated, asset_kept, asset_roundtrip_partial, asset_violated, attach_all, attach_order_partial, attach_violated, body_default, body_density_violated, body_empty_violated, body_from_shapes, body_inst_default, body_inst_partial, body_named_violated, body_roundtrip_partial, camera_roundtrip_partial, camera_views_stable, camera_violated, channels_loaded, channels_roundtrip_partial, channels_violated, clip_resaved_violated, clip_roundtrip_partial, clip_violated, code_place, collision_violated, common_roundtrip_partial, constraint_roundtrip_partial, controller_morph_roundtrip_partial, controller_roundtrip_partial, controller_skin_roundtrip_partial, controller_skin_wins, controller_violated, curves_linked, custom_again_partial, custom_bare_violated, custom_kept, custom_linked_partial, custom_mixed_violated, custom_resave_violated, custom_second_violated, custom_whole, document_roundtrip_partial, document_violated, effect_asset_violated, effect_element_violated, effect_images, effect_profiles_violated, effect_roundtrip_partial, effect_unknown_violated, emission_violated, entity_roundtrip_partial, entity_violated, extra_empty, extra_roundtrip_partial, extra_violated, failed_channel_violated, float_source_roundtrip, generator_color_violated, geometry_empty_roundtrip, geometry_first_mesh, geometry_kept, geometry_mesh_roundtrip_partial, geometry_other_element, geometry_roundtrip_partial, geometry_source_partial, geometry_spline_roundtrip_partial, geometry_violated, hull_roundtrip, image_file_violated, image_root_violated, image_roundtrip_partial, inst_force_violated, inst_model_violated, inst_order_violated, inst_target_violated, instance_roundtrip_partial, instance_violated, interpolations_violated, kinds_wellNamed, lastScene_violated, late_body_violated, layer_blank_violated, layer_techniques_violated, layer_unnamed_violated, layers_other_scene, layers_roundtrip_partial, libraries_in_order, libraries_independent, libraries_ordered, library_asset_violated, light_roundtrip_partial, light_violated, material_empty_violated, material_hints_violated, material_newparam_violated, material_roundtrip, material_roundtrip_partial, material_unlinked_violated, matrix_source_roundtrip, mesh_roundtrip_partial, mesh_violated, model_inst_partial, morph_controller_base_violated, morph_file_violated, morph_kept, morph_loaded_valid, morph_roundtrip_partial, morph_violated, names_source_partial, names_source_violated, others_skipped, parameter_roundtrip_partial, parameter_violated, pass_roundtrip_partial, pass_states_sorted, phys_model_other, phys_model_roundtrip_partial, physics_material_roundtrip, places_kept_iff, places_status_violated, plane_kept_iff, plane_violated, point_source_roundtrip, pointer_address, pointer_empty_violated, pointer_named, pointer_none, pointer_shared_violated, pointer_slash_violated, pointer_unique_partial, profile_roundtrip_partial, profile_setparam_violated, qualifier_violated, rbody_status_violated, refraction_violated, render_state_replaced, render_state_roundtrip_partial, sampler_hidden_violated, sampler_unset_violated, saving_adds_sampler_violated, scene_links_partial, scene_roundtrip_partial, scene_values_roundtrip, scene_violated, set_roundtrip_partial, set_violated, shader_violated, shader_without_code_violated, shape_loaded_violated, shape_mass_violated, shape_roundtrip_partial, shininess_violated, sid_given_partial, sid_own, sid_violated, skew_axes, skin_file_violated, skin_loaded_valid, skin_roundtrip_partial, skin_violated, skin_weights_kept, solid_kind, solid_roundtrip_partial, source_ids, spec_level_violated, spline_back, spline_degree_default, spline_degree_violated, spline_empty_violated, spline_name_violated, spline_no_vertices, spline_refused, spline_roundtrip_partial, spline_type_violated, splines_at_most_one, splines_lost_violated, spot_direction_saved_violated, spring_read, spring_violated, state_names_distinct, surface_images_partial, surface_roundtrip_partial, surface_violated, technique_merged, technique_roundtrip_partial, technique_violated, texture_env_mode_violated, texture_image_partial, texture_set_violated, textured_color_violated, transforms_roundtrip_partial, transforms_violated, tree_resaved_violated, tree_roundtrip_partial, unknown_lighting_violated, unnamed_violated, values_roundtrip_partial, vector_source_roundtrip, whole_roundtrip_partial
* Verif.FBld: builder_index_partial, builder_refines_text, builder_toString, builder_u64_partial
* Verif.FColor: byte_trip, color_average, color_of_floats, color_of_hex, color_precision, color_range_violated, color_round_trip, color_scale, from_hsv_partial, from_hsv_violated, hsv_range_partial, hsv_round_trip_partial, rounding, to_hsv_partial, to_hsv_violated
* Verif.FConv: datetime_roundtrip, float_inside_partial, float_list_partial, float_literal_partial, float_literal_violated, float_overread_violated, float_print_partial, float_print_violated, floats_roundtrip, hex_roundtrip_partial, int32_roundtrip_partial, int32_roundtrip_wrap, int_list_roundtrip, interleaved_float_partial, interleaved_partial, list_tokens_partial, matrix_roundtrip, qualifier_index, split_target_partial, string_list_partial, uint32_roundtrip, uint_list_roundtrip, vector_list_rows, vector_roundtrip
* Verif.FCtrl: add_target_partial, base_geometry_controller_partial, base_geometry_partial, calls_end_partial, chains_violated, find_skin_partial, morph_targets_fit_violated, set_base_target_partial, set_geometry_destroys_violated, set_geometry_shared_partial, set_target_null_violated, set_target_partial
* Verif.FEff: alpha_report_violated, color_in_force_partial, default_null_violated, default_same_partial, float_in_force, fx_common_violated, opacity_violated, standard_names, standard_numbers, sync_color_partial, sync_dangling_violated, sync_twice, sync_values
* Verif.FEnt: asset_clone, camera_documented_violated, is_target, targets_counted_partial
* Verif.FExtra: add_attribute, add_type, clean_name, clone_into_technique, clone_node, clone_partial, find_first, find_root, lookup_violated, names_partial, read_attribute, unmixed_partial
* Verif.FFit: fit_partial
* Verif.FFlags: flags_independent, mask_ops
* Verif.FFx: clone_common_violated, clone_cube_violated, clone_curves_violated, clone_effect_partial, clone_equal, clone_flags_violated, clone_fx_partial, clone_hints_violated, clone_kept, clone_material, clone_material_deep_violated, clone_partial, clone_platform_violated, clone_release_violated, clone_sampler_violated, clone_slot_reference_violated, clone_standard_partial, copy_eq, equal_iff_partial, equal_refl_symm, equal_surfaces_violated, equal_trans_violated, overwrite_half_violated, overwrite_partial, overwrite_surface_violated, overwrite_writes
* Verif.FHull: hull_forgotten_violated, hull_linked_partial, hull_order_violated
* Verif.FIds: empty_id_violated, ids_given_partial, ids_reusable, ids_unique_partial, ids_valid, ids_violated
* Verif.FInfl: apply_defined_partial, apply_influence, apply_other
* Verif.FInst: find_scene_node, has_for_parent, joint_list, root_ids, roots_cover, skeleton_found, skeleton_round_trip_partial
* Verif.FIter: breadth_first, depth_first_partial, depth_first_pure, orders_list, scene_traversal
* Verif.FJoint: joints_linked, joints_roundtrip_partial, sids_violated, target_linked, target_missing
* Verif.FLib: find_entity_exact, find_exact, find_none, find_sound, library_add, library_add_new, library_entities, library_get, scene_ranked, sub_id_partial, sub_id_unique_partial, sub_id_unique_violated, sub_id_valid_partial, sub_id_valid_violated
* Verif.FLinkData: circle_violated, fetched_between_violated
* Verif.FMat: bind_each_partial, binding_edits, generated_collide_violated
* Verif.FMesh: add_vertex_source_partial, clone_partial, defined, no_dangling, release_input_partial, release_input_violated, release_source
* Verif.FOwn: add_detach_exact, assign_exact, clear_exact, delete_exact, erase_exact, owned_once_partial, ownership_safe_partial, ownership_violated, release_exact
* Verif.FPack: pack_color_violated, packed_mesh, packed_vertices, packing_map
* Verif.FPass: add_fragment_shader, add_state, add_vertex_shader, clone_code_violated, clone_no_profile_violated, clone_pass_partial, data_size, default_value_partial, find_state, reset_spot_violated, reset_value_partial, spot_direction_violated, state_clone, states_in_order, unknown_state_violated
* Verif.FPath: extension_character_violated, finds_extension_violated, names_in_document, push_current
* Verif.FPhys: body_clone_partial, body_clone_violated, mass_factor, materials_reach, materials_step, mesh_volume_violated, model_clone_partial, model_clone_violated, model_instance_clone_partial, one_geometry_violated, scene_clone_partial, shape_clone_partial, shape_clone_violated, volume_close_partial, volume_cone, volume_ellipsoid, volume_exact_partial, volume_plane, volume_violated
* Verif.FPlugin: archive_for_extension, archive_for_file_partial, archive_hash_violated, extension_added, extension_case_violated, extension_number_violated, extension_numbered, extension_removed, extension_supported, extensions_differ, plug_hash_violated
* Verif.FPoly: add_face, add_hole, defined, fan_inside, queries, remove_partial, set_indices, tile, triangulated
* Verif.FRef: calls_defined, document_lifetime, get_entity, get_entity_loads, no_dangling, one_placeholder, placeholder_references, release_document, release_entity, set_entity, set_uri_id_violated, set_uri_partial, unload_reload
* Verif.FSample: angle_shifted_violated, close_keys_violated, keys_sampled, times_from_keys, times_increasing_partial, wrap_parts, wraps_sampled_partial
* Verif.FScalar: angle_axis_partial, angle_axis_rotation, angle_axis_violated, components_partial, components_violated, direction_unique, normalized, normalized_violated, projection, random_ranges, wrap_float, wrap_general, wrap_int_partial, wrap_uint, wrap_violated
* Verif.FScene: add_child, release_partial, release_violated, remove_child, scene_safe, scene_shape
* Verif.FScheme: clone_callbacks_partial, remove_scheme, set_again_violated, set_scheme_partial
* Verif.FSort: sort_builtin, sort_ordered_permutation
* Verif.FSpline: add_spline, bezier_to_nurbs_closed_partial, bezier_to_nurbs_open, cleared_nurbs_violated, clone_into_partial, clone_into_violated, clone_same, closed_count_violated, closed_documented_violated, convert_open, converted_valid, linear_to_bezier_partial, linear_to_nurbs, nurbs_valid, splines_have_type
* Verif.FStd: animation_asset_violated, camera_look_at_violated, direction_curves_partial, document_partial, length_curves_partial, library_asset_violated, look_at_partial, look_at_violated, matrix_curves_partial, nested_asset_violated, normal_curves_violated, own_asset_violated, pivot_back_partial, pivot_partial, point_curves_partial, position_curves_partial, roll_partial, scale_curves_partial, second_call_partial, second_call_violated, shared_curve_violated, skin_partial, small_factor_violated, transform_partial, transforms_partial, turn_rotation, unit_factor, unlabelled_violated, up_axis_partial, up_axis_violated, wanted_partial, wanted_violated
* Verif.FStr: string_concat, string_eq_iff, string_find_text, string_insert_self_partial, string_lt_ascii, string_lt_iff, string_order_total, string_refines_text_partial, string_resize_fill_partial
* Verif.FSub: clean_changes, clean_keeps, clean_nodes_changes, clean_nodes_keeps, node_sub_ids_unique_partial, sub_ids_unique_partial, sub_ids_violated, zeros_violated
* Verif.FTex: add_at_violated, add_image_partial, add_index_violated, dot_violated, find_image, get_sampler, id_reused_violated, image_released, images_distinct, pointers_live, remove_image, set_image_partial, shared_violated
* Verif.FTrack: released_removed_partial, tracked_alive_partial, tracked_violated, tracking_safe_partial
* Verif.FTree: map_assign_copies, map_iteration_sorted, map_other_keys_untouched, map_prev_next, map_refines_finite_map, map_size_exact, map_stays_balanced
* Verif.FType: includes_iff, includes_order
* Verif.FUnify: apply_map, new_indices, points_unchanged, reset_partial, translation_maps, unique_indices
* Verif.FUniq: contains_erase_partial, contains_violated, unique_names_partial, unique_names_violated
* Verif.FUri: file_path_parse, relative_absolute_partial, relative_moves, relative_parse, relative_path_partial, relative_path_violated, relative_uri_fragment, resolve_relative, uri_parse_partial, uri_parse_violated, uri_roundtrip_partial
* Verif.FVec: vector_find, vector_insert_own_partial, vector_lifetime_partial, vector_push_own_violated, vector_realloc_loses, vector_refines_sequence
* Verif.FVer: version_order_partial
* Verif.FXform: add_transform, clone_alone, clone_node, clone_shared_violated, clone_sub_id_violated, clone_transforms_partial, inverse_near_partial, inverse_partial, inverse_scale_violated, inverse_symmetric, inverse_tolerance_violated, inverse_zero_violated, node_matrix, skew_axis_violated, skew_partial, world_step, world_transform
* Verif.FXml: clean_text, content_escaped, content_roundtrip_partial, filename_escaped, filename_roundtrip
* Verif.Geo: angleAxis_partial, angleAxis_violated, axis_nearly_unit_violated, axis_rotation_partial, axis_special, box_overlaps_partial, box_overlaps_violated, box_reset_violated, box_transform_partial, box_transform_violated, decompose_parts_partial, decompose_pole_violated, euler_rigid, euler_rotation_partial, euler_small_violated, inverse, inverse33, inverse_defined, inverse_small_violated, lookAt_parallel_violated, lookAt_partial, matrix33_operations, matrix_algebra, matrix_operations, matrix_quat_matrix, quat_axis, quat_euler, quat_matrix, quat_matrix_quat, quat_product, quat_vector_partial, quat_vector_violated, recompose_decompose_partial, recompose_order_violated, rotation33_clockwise_violated, slerp_partial, slerp_violated, sphere_contains, sphere_include_box, sphere_include_invalid_violated, sphere_include_point, sphere_include_sphere_partial, sphere_include_sphere_reset, sphere_include_sphere_violated, sphere_overlaps_box, sphere_overlaps_partial, sphere_overlaps_violated, sphere_transform_partial, sphere_transform_violated, toEuler_partial, toEuler_pole_violated, toEuler_previous, toEuler_south_violated, toEuler_x_violated, transformation, unit_axis_rotation
* Verif.Penumbra: angles, both_keys, both_linear_ends, both_linear_partial, created_channel_violated, documented_violated, mixed_violated, negative_penumbra_partial, not_animated, penumbra_animated_partial, shared_animation_partial, shared_animation_violated, steps_violated
* Verif.Skin: each_vertex, reduced_partial, total_violated, unchanged, zero_violated
* Verif.XmlSort: built
