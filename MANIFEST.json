{
 "claims": [
  {
   "property": "C01",
   "status": "proved",
   "theorems": [
    "Verif.FTree.map_refines_finite_map",
    "Verif.FTree.map_other_keys_untouched"
   ],
   "note": ""
  },
  {
   "property": "C02",
   "status": "proved",
   "theorems": [
    "Verif.FTree.map_stays_balanced"
   ],
   "note": ""
  },
  {
   "property": "C03",
   "status": "proved",
   "theorems": [
    "Verif.FTree.map_iteration_sorted",
    "Verif.FTree.map_prev_next",
    "Verif.FTree.map_prev_end_undefined"
   ],
   "note": "-- from end() is undefined behaviour in the code; recorded as map_prev_end_undefined"
  },
  {
   "property": "C04",
   "status": "proved",
   "theorems": [
    "Verif.FTree.map_size_exact",
    "Verif.FTree.map_assign_copies"
   ],
   "note": ""
  },
  {
   "property": "C16",
   "status": "proved",
   "theorems": [
    "Verif.Base64.base64_roundtrip",
    "Verif.Base64.base64_roundtrip_empty_violated"
   ],
   "note": "for every non-empty sequence whose text length fits in int; decoding the empty text is undefined behaviour"
  },
  {
   "property": "C17",
   "status": "proved",
   "theorems": [
    "Verif.Base64.encode_is_rfc4648",
    "Verif.Base64.encode_length"
   ],
   "note": ""
  },
  {
   "property": "C18",
   "status": "partial",
   "theorems": [
    "Verif.Base64.base64_decode_safe_partial",
    "Verif.Base64.base64_decode_safe_violated",
    "Verif.Base64.base64_trailing_blank_violated"
   ],
   "note": "violated by the code: unpadded text or a trailing ignored character is read past its end; safe for well-formed text"
  },
  {
   "property": "C19",
   "status": "proved",
   "theorems": [
    "Verif.Crc32.crc32_is_standard",
    "Verif.Crc32.crc_table_generated"
   ],
   "note": ""
  },
  {
   "property": "C20",
   "status": "proved",
   "theorems": [
    "Verif.Crc32.crc_detects_burst",
    "Verif.Crc32.crc_detects_four_bytes",
    "Verif.Crc32.crc_detects_bit_burst"
   ],
   "note": ""
  },
  {
   "property": "C05",
   "status": "proved",
   "theorems": [
    "Verif.FVec.vector_refines_sequence",
    "Verif.FVec.vector_find"
   ],
   "note": ""
  },
  {
   "property": "C06",
   "status": "partial",
   "theorems": [
    "Verif.FVec.vector_insert_own_partial",
    "Verif.FVec.vector_push_own_violated",
    "Verif.FVec.vector_insert_own_violated"
   ],
   "note": "violated by the code when the buffer is reallocated or the element moves; holds when capacity suffices and the element lies before the insertion point"
  },
  {
   "property": "C55",
   "status": "partial",
   "theorems": [
    "Verif.FVec.vector_lifetime_partial",
    "Verif.FVec.vector_lifetime_violated",
    "Verif.FVec.vector_realloc_loses"
   ],
   "note": "violated by the code: reserve() copies class-type elements and frees the old buffer without destroying them; exact when no reallocation takes place"
  },
  {
   "property": "C07",
   "status": "proved",
   "theorems": [
    "Verif.FSort.sort_ordered_permutation",
    "Verif.FSort.sort_builtin"
   ],
   "note": ""
  },
  {
   "property": "C08",
   "status": "partial",
   "theorems": [
    "Verif.FStr.string_refines_text_partial",
    "Verif.FStr.string_append_after_clear_violated",
    "Verif.FStr.string_append_after_substr_violated",
    "Verif.FStr.string_resize_fill_violated",
    "Verif.FStr.string_resize_fill_partial"
   ],
   "note": "violated by the code: append(char) to a string whose buffer has no terminator yet (after clear() or an empty substr) is undefined, and resize(n, c) leaves the old terminator inside the text"
  },
  {
   "property": "C09",
   "status": "partial",
   "theorems": [
    "Verif.FStr.string_find_text",
    "Verif.FStr.string_find_char_partial",
    "Verif.FStr.string_find_negative_violated",
    "Verif.FStr.string_find_first_of_partial",
    "Verif.FStr.string_find_first_of_violated",
    "Verif.FStr.string_find_last_of_partial",
    "Verif.FStr.string_find_last_of_violated",
    "Verif.FStr.string_find_npos_violated"
   ],
   "note": "violated by the code: characters above 127 are never found, find_first_of and find_last_of bound or walk the set wrongly, find(c, npos) reads outside the buffer; find(text) is exact"
  },
  {
   "property": "C56",
   "status": "proved",
   "theorems": [
    "Verif.FStr.string_concat",
    "Verif.FStr.string_eq_iff",
    "Verif.FStr.string_lt_iff",
    "Verif.FStr.string_order_total",
    "Verif.FStr.string_lt_ascii"
   ],
   "note": ""
  },
  {
   "property": "C57",
   "status": "partial",
   "theorems": [
    "Verif.FStr.string_insert_self_partial",
    "Verif.FStr.string_insert_self_violated"
   ],
   "note": "violated by the code when the insertion point is inside the text (overlapping copy); holds at the ends"
  },
  {
   "property": "C10",
   "status": "proved",
   "theorems": [
    "Verif.FBld.builder_refines_text",
    "Verif.FBld.builder_toString",
    "Verif.FBld.builder_constructors"
   ],
   "note": ""
  },
  {
   "property": "C58",
   "status": "partial",
   "theorems": [
    "Verif.FBld.builder_index_partial",
    "Verif.FBld.builder_index_violated",
    "Verif.FBld.builder_rindex_partial",
    "Verif.FBld.builder_rindex_violated"
   ],
   "note": "violated by the code: index looks one past the text, rindex never looks at position 0"
  },
  {
   "property": "C59",
   "status": "partial",
   "theorems": [
    "Verif.FBld.builder_u64_partial",
    "Verif.FBld.builder_u64_violated"
   ],
   "note": "violated by the code: the value is truncated to 32 bits"
  },
  {
   "property": "C11",
   "status": "proved",
   "theorems": [
    "Verif.FConv.uint32_roundtrip"
   ],
   "note": ""
  },
  {
   "property": "C12",
   "status": "partial",
   "theorems": [
    "Verif.FConv.int32_roundtrip_wrap",
    "Verif.FConv.int32_roundtrip_partial",
    "Verif.FConv.int32_overflow_violated"
   ],
   "note": "holds for every value when int arithmetic wraps; in standard C++ the parser overflows on the 97 values of largest magnitude"
  },
  {
   "property": "C13",
   "status": "partial",
   "theorems": [
    "Verif.FConv.hex_roundtrip_partial",
    "Verif.FConv.hex_multibyte_violated"
   ],
   "note": "violated by the code for integers of more than one byte, which are written lowest byte first; holds for bytes"
  },
  {
   "property": "C14",
   "status": "partial",
   "theorems": [
    "Verif.FConv.int_list_roundtrip",
    "Verif.FConv.uint_list_roundtrip",
    "Verif.FConv.list_tokens_partial",
    "Verif.FConv.list_tokens_violated"
   ],
   "note": "the round trip holds for all lists; a carriage return does not end an integer and a text of blanks reads as one zero"
  },
  {
   "property": "C15",
   "status": "partial",
   "theorems": [
    "Verif.FConv.parsers_stay_inside_partial",
    "Verif.FConv.float_inside_partial",
    "Verif.FConv.float_overread_violated"
   ],
   "note": "holds for the integer, hexadecimal and boolean parsers on all texts and for the float parser on texts without the letter I; violated on I"
  },
  {
   "property": "C60",
   "status": "partial",
   "theorems": [
    "Verif.FConv.count_values_partial",
    "Verif.FConv.count_values_violated"
   ],
   "note": "ToBooleanList is exact; CountValues returns 0 when the first character is above 127"
  },
  {
   "property": "C61",
   "status": "partial",
   "theorems": [
    "Verif.FConv.float_literal_partial",
    "Verif.FConv.float_list_partial",
    "Verif.FConv.float_literal_violated"
   ],
   "note": "violated by the code for exponents with a plus sign and for carriage returns behind an exponent"
  },
  {
   "property": "C62",
   "status": "partial",
   "theorems": [
    "Verif.FConv.float_print_partial",
    "Verif.FConv.float_print_violated"
   ],
   "note": "violated by the code: infinities read back as 0, magnitudes below 2^-23 are written as 0"
  },
  {
   "property": "C63",
   "status": "proved",
   "theorems": [
    "Verif.FConv.floats_roundtrip",
    "Verif.FConv.matrix_roundtrip",
    "Verif.FConv.vector_roundtrip",
    "Verif.FConv.vector_list_rows"
   ],
   "note": "over exact arithmetic, given the formatting library's %.6g text"
  },
  {
   "property": "C49",
   "status": "proved",
   "theorems": [
    "Verif.FConv.datetime_roundtrip",
    "Verif.FConv.datetime_other_length",
    "Verif.FConv.datetime_violated"
   ],
   "note": "for years below 10000; later years do not fit the 20 character text"
  },
  {
   "property": "C64",
   "status": "partial",
   "theorems": [
    "Verif.FConv.interleaved_partial",
    "Verif.FConv.interleaved_float_partial",
    "Verif.FConv.interleaved_violated"
   ],
   "note": "holds when the first array exists, arrays have equal lengths; an incomplete last tuple is dropped unless it falls on old elements; violated otherwise"
  },
  {
   "property": "C65",
   "status": "partial",
   "theorems": [
    "Verif.FConv.string_list_partial",
    "Verif.FConv.string_list_violated"
   ],
   "note": "holds for empty targets; violated by the code for targets that hold elements"
  },
  {
   "property": "C66",
   "status": "partial",
   "theorems": [
    "Verif.FConv.split_target_partial",
    "Verif.FConv.split_target_violated",
    "Verif.FConv.qualifier_index",
    "Verif.FConv.qualifier_none"
   ],
   "note": "violated by the code for the one character targets ( [ ."
  },
  {
   "property": "C21",
   "status": "partial",
   "theorems": [
    "Verif.FUniq.unique_names_partial",
    "Verif.FUniq.unique_names_violated"
   ],
   "note": "violated by the code once a name ends in 4294967294; holds in all other histories"
  },
  {
   "property": "C22",
   "status": "partial",
   "theorems": [
    "Verif.FUniq.contains_erase_partial",
    "Verif.FUniq.contains_violated"
   ],
   "note": "names are identified by base and 32-bit value of their digits; exact for names without leading zeros"
  },
  {
   "property": "C23",
   "status": "partial",
   "theorems": [
    "Verif.FUri.uri_parse_partial",
    "Verif.FUri.uri_roundtrip_partial",
    "Verif.FUri.file_path_parse",
    "Verif.FUri.relative_parse",
    "Verif.FUri.uri_parse_violated"
   ],
   "note": "Missing: user information, query together with fragment, paths ending in a slash; these fail, as uri_parse_violated shows."
  },
  {
   "property": "C24",
   "status": "partial",
   "theorems": [
    "Verif.FUri.relative_path_partial",
    "Verif.FUri.relative_absolute_partial",
    "Verif.FUri.resolve_relative",
    "Verif.FUri.relative_path_violated"
   ],
   "note": "Missing: a document in the root folder, which is undefined behaviour."
  },
  {
   "property": "C67",
   "status": "proved",
   "theorems": [
    "Verif.FUri.relative_uri_fragment",
    "Verif.FUri.relative_moves"
   ],
   "note": "Documents with file paths that share at least one folder."
  },
  {
   "property": "C25",
   "status": "partial",
   "theorems": [
    "Verif.FXml.content_roundtrip_partial",
    "Verif.FXml.content_escaped",
    "Verif.FXml.content_violated"
   ],
   "note": "Missing: content with '%', which fails. libxml2 is not modelled."
  },
  {
   "property": "C26",
   "status": "proved",
   "theorems": [
    "Verif.FXml.filename_escaped",
    "Verif.FXml.filename_roundtrip"
   ],
   "note": "libxml2 is not modelled."
  },
  {
   "property": "C27",
   "status": "proved",
   "theorems": [
    "Verif.FXml.clean_text",
    "Verif.FXml.clean_valid"
   ],
   "note": "CleanName of FCDEntity is the same function as CleanSubId."
  },
  {
   "property": "C28",
   "status": "partial",
   "theorems": [
    "Verif.FIds.ids_unique_partial",
    "Verif.FIds.ids_given_partial",
    "Verif.FIds.ids_violated"
   ],
   "note": "Missing: ids ending in 4294967294 and cloning into an object that has an id; both fail."
  },
  {
   "property": "C68",
   "status": "partial",
   "theorems": [
    "Verif.FXml.uri_escape_violated"
   ],
   "note": "The property fails for every non-empty text of plain characters."
  },
  {
   "property": "C69",
   "status": "partial",
   "theorems": [
    "Verif.FIds.ids_valid",
    "Verif.FIds.ids_reusable",
    "Verif.FIds.empty_id_violated"
   ],
   "note": "For reachable documents as in C28; an empty wish can give the invalid id 1."
  },
  {
   "property": "C31",
   "status": "partial",
   "theorems": [
    "Verif.FTrack.tracked_alive_partial",
    "Verif.FTrack.released_removed_partial",
    "Verif.FTrack.tracking_safe_partial",
    "Verif.FTrack.tracked_violated"
   ],
   "note": "Missing: lists given an object twice, copied tracked pointers and lists; all fail. Other tracker classes are not modelled."
  },
  {
   "property": "C33",
   "status": "partial",
   "theorems": [
    "Verif.FEvent.event_partial",
    "Verif.FEvent.event_violated"
   ],
   "note": "Missing: releasing an object with no or with several handlers; both fail."
  },
  {
   "property": "C43",
   "status": "proved",
   "theorems": [
    "Verif.FType.includes_iff",
    "Verif.FType.includes_order"
   ],
   "note": ""
  },
  {
   "property": "C45",
   "status": "partial",
   "theorems": [
    "Verif.FVer.version_order_partial",
    "Verif.FVer.version_parse_partial",
    "Verif.FVer.version_violated"
   ],
   "note": "Missing: > and >= on equal versions, which are swapped."
  },
  {
   "property": "C50",
   "status": "proved",
   "theorems": [
    "Verif.FFlags.mask_ops",
    "Verif.FFlags.flags_independent"
   ],
   "note": "For class chains with at most 32 flags, as in the code."
  },
  {
   "property": "C52",
   "status": "partial",
   "theorems": [
    "Verif.FEvent.errors_partial",
    "Verif.FEvent.errors_violated"
   ],
   "note": "Missing: as for C33. Threads are not modelled."
  },
  {
   "property": "C70",
   "status": "proved",
   "theorems": [
    "Verif.FEvent.simple_handler",
    "Verif.FEvent.log_counts"
   ],
   "note": "The message texts are not modelled; counters are modulo 2^32."
  },
  {
   "property": "C32",
   "status": "partial",
   "theorems": [
    "Verif.FOwn.owned_once_partial",
    "Verif.FOwn.ownership_safe_partial",
    "Verif.FOwn.release_exact",
    "Verif.FOwn.clear_exact",
    "Verif.FOwn.delete_exact",
    "Verif.FOwn.erase_exact",
    "Verif.FOwn.add_detach_exact",
    "Verif.FOwn.assign_exact",
    "Verif.FOwn.ownership_violated"
   ],
   "note": "Missing: objects given to a second owner, the exchange of references, self-assignment of a reference; all fail. Erasing and detaching ranges is not modelled."
  },
  {
   "property": "C29",
   "status": "proved",
   "theorems": [
    "Verif.FScene.scene_shape",
    "Verif.FScene.add_child",
    "Verif.FScene.remove_child",
    "Verif.FScene.scene_safe"
   ],
   "note": "Histories also contain creation and release of nodes."
  },
  {
   "property": "C71",
   "status": "partial",
   "theorems": [
    "Verif.FScene.release_partial",
    "Verif.FScene.release_violated"
   ],
   "note": "Missing: shared descendants are deleted too, which violates the property."
  },
  {
   "property": "C30",
   "status": "partial",
   "theorems": [
    "Verif.FIter.breadth_first",
    "Verif.FIter.depth_first_pure",
    "Verif.FIter.depth_first_partial",
    "Verif.FIter.orders_list",
    "Verif.FIter.scene_traversal",
    "Verif.FIter.visit_all",
    "Verif.FIter.preorder_violated",
    "Verif.FIter.deep_violated",
    "Verif.FIter.cycle_violated"
   ],
   "note": "Missing: depth first with instances of nodes that have nodes below them (pre-order) or deeper than seven; cyclic instances; all fail."
  },
  {
   "property": "C36",
   "status": "proved",
   "theorems": [
    "Verif.FPoly.triangulated",
    "Verif.FPoly.triangulate_lines",
    "Verif.FPoly.fan_inside"
   ],
   "note": "For all sets in the reachable states of C48, holes included (they are dropped)."
  },
  {
   "property": "C48",
   "status": "partial",
   "theorems": [
    "Verif.FPoly.defined",
    "Verif.FPoly.queries",
    "Verif.FPoly.tile",
    "Verif.FPoly.add_face",
    "Verif.FPoly.add_hole",
    "Verif.FPoly.set_indices",
    "Verif.FPoly.remove_partial",
    "Verif.FPoly.mesh_offsets",
    "Verif.FPoly.remove_second_violated",
    "Verif.FPoly.remove_third_violated",
    "Verif.FPoly.remove_holes_violated",
    "Verif.FPoly.empty_face_violated"
   ],
   "note": "Missing: removing any face but the first, or from a set with holes, and faces without corners; all fail."
  },
  {
   "property": "C37",
   "status": "partial",
   "theorems": [
    "Verif.FUnify.new_indices",
    "Verif.FUnify.unique_indices",
    "Verif.FUnify.points_unchanged",
    "Verif.FUnify.twice_violated"
   ],
   "note": "Missing: polygon sets which use one source in two inputs (fails, twice_violated), and the variant for a single polygon set."
  },
  {
   "property": "C74",
   "status": "partial",
   "theorems": [
    "Verif.FUnify.translation_maps",
    "Verif.FUnify.apply_map",
    "Verif.FUnify.reset_partial",
    "Verif.FUnify.reset_violated",
    "Verif.FUnify.buffer_violated"
   ],
   "note": "Missing: several polygon sets in the last loop of ApplyUniqueIndices, and vertices without a value in the first source; both fail."
  },
  {
   "property": "C53",
   "status": "partial",
   "theorems": [
    "Verif.XmlSort.names_order",
    "Verif.XmlSort.inserted",
    "Verif.XmlSort.place_partial",
    "Verif.XmlSort.built",
    "Verif.XmlSort.text_violated"
   ],
   "note": "built: all nodes filled by AddChildSorted alone. Missing: a parent whose first child is a text or comment (fails, text_violated)."
  },
  {
   "property": "C47",
   "status": "partial",
   "theorems": [
    "Verif.Skin.unchanged",
    "Verif.Skin.reduced_partial",
    "Verif.Skin.each_vertex",
    "Verif.Skin.zero_violated",
    "Verif.Skin.total_violated"
   ],
   "note": "Missing: influences that are all zero (division by zero) and vertices of which no influence is strong enough (the total is lost)."
  },
  {
   "property": "C34",
   "status": "proved",
   "theorems": [
    "Verif.Curve.add_key",
    "Verif.Curve.history_sorted"
   ],
   "note": "SetKeyCount and the appending AddKey are not part of the histories: they do not take a time."
  },
  {
   "property": "C35",
   "status": "partial",
   "theorems": [
    "Verif.Curve.defined",
    "Verif.Curve.at_key_partial",
    "Verif.Curve.at_last",
    "Verif.Curve.constant_infinity",
    "Verif.Curve.linear_infinity_partial",
    "Verif.Curve.cycle_infinity",
    "Verif.Curve.cycle_relative_infinity",
    "Verif.Curve.oscillate_infinity",
    "Verif.Curve.linear_segment",
    "Verif.Curve.step_segment",
    "Verif.Curve.bezier_segment",
    "Verif.Curve.step_violated",
    "Verif.Curve.bezier_violated",
    "Verif.Curve.pre_linear_violated",
    "Verif.Curve.same_time_violated",
    "Verif.Curve.tcb_violated"
   ],
   "note": "Missing: keys behind step and Bezier segments, linear infinity before the first key, keys with equal times, the exact values of TCB segments; all fail."
  },
  {
   "property": "C75",
   "status": "partial",
   "theorems": [
    "Verif.Curve.history_offset",
    "Verif.Curve.select_offset",
    "Verif.Curve.move_samples_partial",
    "Verif.Curve.shift_samples",
    "Verif.Curve.select_samples_partial",
    "Verif.Curve.bezier_shift_violated",
    "Verif.Curve.changed_offset_violated",
    "Verif.Curve.add_clip_violated",
    "Verif.Curve.clone_violated",
    "Verif.Curve.clone_selected_violated"
   ],
   "note": "Missing: curves with Bezier or TCB keys, changing the offset of the selected clip, clips added by AddClip, clones; all fail."
  },
  {
   "property": "C40",
   "status": "proved",
   "theorems": [
    "Verif.Geo.matrix_operations",
    "Verif.Geo.matrix_algebra",
    "Verif.Geo.transformation",
    "Verif.Geo.transform_product",
    "Verif.Geo.matrix33_operations"
   ],
   "note": "Exact arithmetic, over any commutative ring."
  },
  {
   "property": "C41",
   "status": "proved",
   "theorems": [
    "Verif.Geo.inverse",
    "Verif.Geo.inverse33",
    "Verif.Geo.inverse_defined",
    "Verif.Geo.inverse_small_violated"
   ],
   "note": "Exact arithmetic. inverse_small_violated shows regular matrices within the threshold, which the property excludes."
  },
  {
   "property": "C42",
   "status": "proved",
   "theorems": [
    "Verif.Geo.unit_axis_rotation",
    "Verif.Geo.axis_special",
    "Verif.Geo.translation_scale",
    "Verif.Geo.euler_rigid",
    "Verif.Geo.axis_rotation_partial",
    "Verif.Geo.euler_rotation_partial",
    "Verif.Geo.axis_nearly_unit_violated",
    "Verif.Geo.euler_small_violated",
    "Verif.Geo.rotation33_clockwise_violated"
   ],
   "note": "Over the reals. Beyond the property: axes of other lengths and Euler rotations, of which the _partial theorems leave out the cases shown to fail."
  },
  {
   "property": "C76",
   "status": "partial",
   "theorems": [
    "Verif.Geo.decompose_parts_partial",
    "Verif.Geo.recompose_decompose_partial",
    "Verif.Geo.recompose_order_violated",
    "Verif.Geo.decompose_pole_violated"
   ],
   "note": "Missing: matrices close to but not at the pole, and Recompose with two or more angles; both fail."
  },
  {
   "property": "C77",
   "status": "partial",
   "theorems": [
    "Verif.Geo.lookAt_partial",
    "Verif.Geo.lookAt_parallel_violated"
   ],
   "note": "Missing: viewing directions (nearly) parallel to up, which fail."
  },
  {
   "property": "C78",
   "status": "partial",
   "theorems": [
    "Verif.Geo.quat_matrix",
    "Verif.Geo.quat_product",
    "Verif.Geo.quat_axis",
    "Verif.Geo.quat_euler",
    "Verif.Geo.matrix_quat_matrix",
    "Verif.Geo.quat_matrix_quat",
    "Verif.Geo.quat_vector_partial",
    "Verif.Geo.quat_vector_violated"
   ],
   "note": "Missing: multiplying a vector by a quaternion, which rotates it backwards."
  },
  {
   "property": "C79",
   "status": "partial",
   "theorems": [
    "Verif.Geo.slerp_partial",
    "Verif.Geo.slerp_violated"
   ],
   "note": "Missing: opposite quaternions (division by zero) and nearly equal ones (not interpolated)."
  },
  {
   "property": "C80",
   "status": "partial",
   "theorems": [
    "Verif.Geo.angleAxis_partial",
    "Verif.Geo.toEuler_partial",
    "Verif.Geo.toEuler_previous",
    "Verif.Geo.angleAxis_violated",
    "Verif.Geo.toEuler_x_violated",
    "Verif.Geo.toEuler_south_violated",
    "Verif.Geo.toEuler_pole_violated"
   ],
   "note": "Missing: Euler angles of rotations around X other than by quarter turns, at the lower pole and near the poles; axes of very small rotations; all fail."
  },
  {
   "property": "C38",
   "status": "partial",
   "theorems": [
    "Verif.Geo.box_contains",
    "Verif.Geo.box_grows",
    "Verif.Geo.box_include",
    "Verif.Geo.box_reset_box",
    "Verif.Geo.box_reset_partial",
    "Verif.Geo.box_reset_violated",
    "Verif.Geo.box_equals",
    "Verif.Geo.box_overlaps_symm",
    "Verif.Geo.box_overlaps_partial",
    "Verif.Geo.box_overlaps_violated",
    "Verif.Geo.box_transform_partial",
    "Verif.Geo.box_transform_violated"
   ],
   "note": "Missing: a first point above all others after a reset, transformations under which the first corner becomes the greatest, overlap of invalid boxes; all fail."
  },
  {
   "property": "C39",
   "status": "partial",
   "theorems": [
    "Verif.Geo.sphere_contains",
    "Verif.Geo.sphere_include_point",
    "Verif.Geo.sphere_include_box",
    "Verif.Geo.sphere_include_sphere_partial",
    "Verif.Geo.sphere_include_sphere_reset",
    "Verif.Geo.sphere_include_sphere_violated",
    "Verif.Geo.sphere_include_invalid_violated",
    "Verif.Geo.sphere_overlaps_partial",
    "Verif.Geo.sphere_overlaps_violated",
    "Verif.Geo.sphere_overlaps_box",
    "Verif.Geo.sphere_transform_partial",
    "Verif.Geo.sphere_transform_violated"
   ],
   "note": "Missing: spheres of different radius, the overlap centre of two spheres, transformations that shear; all fail."
  },
  {
   "property": "C44",
   "status": "partial",
   "theorems": [
    "Verif.Enum.splineType_names",
    "Verif.Enum.splineForm_names",
    "Verif.Enum.textureWrapMode_names",
    "Verif.Enum.morphMethod_names",
    "Verif.Enum.infinity_names",
    "Verif.Enum.blendMode_names",
    "Verif.Enum.geometryInput_names",
    "Verif.Enum.profileType_names",
    "Verif.Enum.passStateFunction_names",
    "Verif.Enum.passStateStencilOperation_names",
    "Verif.Enum.passStateBlendType_names",
    "Verif.Enum.passStateFaceType_names",
    "Verif.Enum.passStateBlendEquation_names",
    "Verif.Enum.passStateMaterialType_names",
    "Verif.Enum.passStateFogType_names",
    "Verif.Enum.passStateFogCoordinateType_names",
    "Verif.Enum.passStateFrontFaceType_names",
    "Verif.Enum.passStateLogicOperation_names",
    "Verif.Enum.passStatePolygonMode_names",
    "Verif.Enum.passStateShadeModel_names",
    "Verif.Enum.passStateLightModelColorControlType_names",
    "Verif.Enum.passState_names",
    "Verif.Enum.interpolation_names",
    "Verif.Enum.textureFilter_partial",
    "Verif.Enum.textureFilter_violated",
    "Verif.Enum.unnamed_values",
    "Verif.Enum.textureChannel_read"
   ],
   "note": "Missing: the name of the texture filter LINEAR, which is never written."
  },
  {
   "property": "C46",
   "status": "partial",
   "theorems": [
    "Verif.FPath.strip_partial",
    "Verif.FPath.strip_name_violated",
    "Verif.FPath.strip_long_violated",
    "Verif.FPath.extension_partial",
    "Verif.FPath.extension_long_violated",
    "Verif.FPath.extension_character_violated",
    "Verif.FPath.finds_extension_violated",
    "Verif.FPath.folder_partial",
    "Verif.FPath.stack_history",
    "Verif.FPath.push_current",
    "Verif.FPath.names_in_document"
   ],
   "note": "Missing: paths of more than 1023 characters, the folder of a name without one, extensions with characters outside ASCII; all fail."
  },
  {
   "property": "C51",
   "status": "partial",
   "theorems": [
    "Verif.Curve.merge_partial",
    "Verif.Curve.merge_exact",
    "Verif.Curve.merge_single",
    "Verif.Curve.merge_order_violated",
    "Verif.Curve.collapse_partial",
    "Verif.Curve.collapse_average_partial",
    "Verif.Curve.collapse_violated"
   ],
   "note": "Missing: keys of one curve closer than the tolerance (fails); collapsing Bezier keys (undefined)."
  },
  {
   "property": "C81",
   "status": "partial",
   "theorems": [
    "Verif.Curve.merged_sample_partial",
    "Verif.Curve.merged_step_violated",
    "Verif.Curve.merged_bezier_violated",
    "Verif.Curve.merged_infinity_violated",
    "Verif.Curve.merged_default_violated"
   ],
   "note": "Missing: interpolations other than LINEAR, infinities other than CONSTANT, keys of different curves closer than the tolerance, default values without any key; all but the last but one fail."
  },
  {
   "property": "C54",
   "status": "proved",
   "theorems": [
    "Verif.FLib.library_entities",
    "Verif.FLib.library_get",
    "Verif.FLib.library_add",
    "Verif.FLib.library_add_new",
    "Verif.FLib.find_sound",
    "Verif.FLib.find_none",
    "Verif.FLib.find_exact",
    "Verif.FLib.find_entity_exact",
    "Verif.FLib.scene_ranked"
   ],
   "note": "The entity list of a library over the ownership model of C32, and the search over the id model of C28 (with its conditions: FIds.Reach). A search gives ids to entities that have none; find_sound and find_none hold for that case too, find_exact is for entities that all have ids."
  },
  {
   "property": "C82",
   "status": "partial",
   "theorems": [
    "Verif.FLib.sub_id_partial",
    "Verif.FLib.sub_id_unique_partial",
    "Verif.FLib.sub_id_valid_partial",
    "Verif.FLib.sub_id_valid_violated",
    "Verif.FLib.sub_id_unique_violated"
   ],
   "note": "Unique if at most 512 related nodes have sub ids; valid if the text itself is. Both claims fail in general: the text is appended to without being cleaned, and the 514th candidate is not tested."
  },
  {
   "property": "C73",
   "status": "partial",
   "theorems": [
    "Verif.FPack.packing_map",
    "Verif.FPack.packed_vertices",
    "Verif.FPack.packed_mesh",
    "Verif.FPack.largest_index",
    "Verif.FPack.pack_color_violated",
    "Verif.FPack.pack_reuse_violated"
   ],
   "note": "Proved for vertices of floating-point values and an empty packing map. Fails for colours, which are truncated and not scaled, and for a packing map that is used a second time."
  },
  {
   "property": "C72",
   "status": "partial",
   "theorems": [
    "Verif.FFit.fit_partial",
    "Verif.FFit.fit_large_violated",
    "Verif.FFit.fit_prim_violated",
    "Verif.FFit.fit_hole_violated",
    "Verif.FFit.fit_offset_violated"
   ],
   "note": "Proved when no face is larger than the maximum and exactly the inputs of the per-vertex sources have offset 0. Otherwise the call may never end or lose indices; primitive types and holes are not kept in the new sets."
  },
  {
   "property": "C83",
   "status": "partial",
   "theorems": [
    "Verif.FMesh.defined",
    "Verif.FMesh.no_dangling",
    "Verif.FMesh.release_source",
    "Verif.FMesh.release_input_partial",
    "Verif.FMesh.release_input_violated",
    "Verif.FMesh.add_vertex_source_partial",
    "Verif.FMesh.add_vertex_source_violated"
   ],
   "note": "Proved for the release of sources. For the release of inputs and new per-vertex sources it holds for the inputs that do not use the removed list; those that do lose their indices."
  },
  {
   "property": "C84",
   "status": "partial",
   "theorems": [
    "Verif.FMesh.clone_partial",
    "Verif.FMesh.clone_prim_violated",
    "Verif.FMesh.clone_offset_violated",
    "Verif.FMesh.clone_twice_violated"
   ],
   "note": "Proved for sets with one input for each source, with the per-vertex sources at offset 0; the primitive type is not kept."
  },
  {
   "property": "C85",
   "status": "proved",
   "theorems": [
    "Verif.FXform.node_matrix",
    "Verif.FXform.add_transform",
    "Verif.FXform.world_transform",
    "Verif.FXform.world_step"
   ],
   "note": "Over real numbers, on top of the matrices of C40 and the scene graphs of C29."
  },
  {
   "property": "C86",
   "status": "partial",
   "theorems": [
    "Verif.FXform.inverse_partial",
    "Verif.FXform.inverse_symmetric",
    "Verif.FXform.inverse_near_partial",
    "Verif.FXform.inverse_tolerance_violated",
    "Verif.FXform.inverse_zero_violated",
    "Verif.FXform.inverse_scale_violated"
   ],
   "note": "Exactly opposite translations and rotations are recognised and undo each other; the tolerance and the zero axis give wrong answers, and inverse scales are not recognised."
  },
  {
   "property": "C87",
   "status": "partial",
   "theorems": [
    "Verif.FXform.skew_partial",
    "Verif.FXform.skew_axis_violated"
   ],
   "note": "The matrix is a skew with these properties, but the axes are exchanged: the axis which is rotated stays and the other one is turned."
  },
  {
   "property": "C88",
   "status": "partial",
   "theorems": [
    "Verif.FXform.clone_node",
    "Verif.FXform.clone_alone",
    "Verif.FXform.clone_transforms_partial",
    "Verif.FXform.clone_sub_id_violated",
    "Verif.FXform.clone_shared_violated"
   ],
   "note": "The hierarchy, flags and values are kept; sub ids of transforms are lost and shared nodes are cloned once for each place."
  },
  {
   "property": "C89",
   "status": "partial",
   "theorems": [
    "Verif.FAnimList.list_helpers_partial",
    "Verif.FAnimList.get_animated",
    "Verif.FAnimList.pointers_partial",
    "Verif.FAnimList.insert_pointer_violated",
    "Verif.FAnimList.erase_pointer_violated",
    "Verif.FAnimList.resize_value_violated"
   ],
   "note": "Indices and identities are right along all histories without a shrinking resize(count, value); the pointers only if no values are inserted or removed between helpers without reallocation."
  },
  {
   "property": "C90",
   "status": "partial",
   "theorems": [
    "Verif.FAnim.qualifier_partial",
    "Verif.FAnim.skew_qualifier_violated",
    "Verif.FAnim.find_qualifier",
    "Verif.FAnim.find_listed",
    "Verif.FAnim.find_index",
    "Verif.FAnim.matrix_range_violated",
    "Verif.FAnim.curves_step",
    "Verif.FAnim.curves_results",
    "Verif.FAnim.add_curve_violated",
    "Verif.FAnim.clone_new",
    "Verif.FAnim.clone_into",
    "Verif.FAnim.custom_resize",
    "Verif.FAnim.custom_copy"
   ],
   "note": "All types but skews, which get the qualifiers of a look-at; a new curve does not replace the old one, and bracketed matrix qualifiers out of range are found."
  },
  {
   "property": "C91",
   "status": "partial",
   "theorems": [
    "Verif.FAnim.set_time_partial",
    "Verif.FAnim.sampled_unique",
    "Verif.FAnim.set_time_cycle_violated",
    "Verif.FAnim.multi_curve_partial"
   ],
   "note": "For references without cycles and floats driven by one curve; documents that refer to each other make the call endless. The curve of several dimensions under the conditions of C81."
  },
  {
   "property": "C92",
   "status": "partial",
   "theorems": [
    "Verif.FExtra.clean_name",
    "Verif.FExtra.names_partial",
    "Verif.FExtra.names_violated",
    "Verif.FExtra.empty_name_violated",
    "Verif.FExtra.add_attribute",
    "Verif.FExtra.read_attribute",
    "Verif.FExtra.lookup_violated",
    "Verif.FExtra.find_first",
    "Verif.FExtra.find_root",
    "Verif.FExtra.add_type"
   ],
   "note": "For all histories without the setters that do not check names; these and the empty name break validity or uniqueness, and names are cleaned when added but not when searched."
  },
  {
   "property": "C93",
   "status": "partial",
   "theorems": [
    "Verif.FExtra.set_content",
    "Verif.FExtra.add_parameter",
    "Verif.FExtra.find_parameters",
    "Verif.FExtra.find_parameter_violated",
    "Verif.FExtra.unmixed_partial",
    "Verif.FExtra.mixed_violated",
    "Verif.FExtra.has_content"
   ],
   "note": "Holds for histories that add child nodes only to nodes without content; otherwise both occur. FindParameter also returns nodes with children."
  },
  {
   "property": "C94",
   "status": "partial",
   "theorems": [
    "Verif.FExtra.clone_partial",
    "Verif.FExtra.clone_node",
    "Verif.FExtra.clone_into",
    "Verif.FExtra.clone_into_technique",
    "Verif.FExtra.clone_name_violated",
    "Verif.FExtra.clone_merge_violated",
    "Verif.FExtra.clone_default_violated"
   ],
   "note": "Equal for extras with valid unique names and a default type; others change. Animated values are not cloned."
  },
  {
   "property": "C95",
   "status": "partial",
   "theorems": [
    "Verif.FRef.set_entity",
    "Verif.FRef.set_uri_partial",
    "Verif.FRef.get_entity",
    "Verif.FRef.get_entity_loads",
    "Verif.FRef.set_uri_violated",
    "Verif.FRef.set_null_violated",
    "Verif.FRef.set_uri_id_violated"
   ],
   "note": "SetEntity and resolution hold for all histories; SetUri only for references without entity, SetEntity(NULL) is undone by the next GetEntity."
  },
  {
   "property": "C96",
   "status": "partial",
   "theorems": [
    "Verif.FRef.placeholder_references",
    "Verif.FRef.document_lifetime",
    "Verif.FRef.one_placeholder",
    "Verif.FRef.two_copies_violated"
   ],
   "note": "All proved for documents; for URLs two placeholders can exist and the file is then loaded twice."
  },
  {
   "property": "C97",
   "status": "proved",
   "theorems": [
    "Verif.FRef.no_dangling",
    "Verif.FRef.calls_defined",
    "Verif.FRef.release_entity",
    "Verif.FRef.release_document",
    "Verif.FRef.unload_reload"
   ],
   "note": "Documents other than the home document have no references of their own in the model."
  },
  {
   "property": "C98",
   "status": "partial",
   "theorems": [
    "Verif.FPhys.volume_exact_partial",
    "Verif.FPhys.volume_plane",
    "Verif.FPhys.volume_cone",
    "Verif.FPhys.volume_ellipsoid",
    "Verif.FPhys.volume_close_partial",
    "Verif.FPhys.volume_violated"
   ],
   "note": "Exact except where the tolerance takes a tapered solid for a straight one; there the error is bounded. Floats are reals."
  },
  {
   "property": "C99",
   "status": "partial",
   "theorems": [
    "Verif.FPhys.mesh_volume_partial",
    "Verif.FPhys.bounding_volume_unique",
    "Verif.FPhys.other_volume",
    "Verif.FPhys.mesh_volume_violated"
   ],
   "note": "Holds per set of polygons, for positions of which the first is not above all others (C38); chains of hulls that end."
  },
  {
   "property": "C100",
   "status": "partial",
   "theorems": [
    "Verif.FPhys.shape_clone_partial",
    "Verif.FPhys.shape_clone_material",
    "Verif.FPhys.analytical_clone_partial",
    "Verif.FPhys.shape_clone_violated",
    "Verif.FPhys.one_geometry_partial",
    "Verif.FPhys.one_geometry_violated"
   ],
   "note": "Exact condition for the clone to be right; fails for planes, material instances and the density preference."
  },
  {
   "property": "C101",
   "status": "partial",
   "theorems": [
    "Verif.FPhys.materials_step",
    "Verif.FPhys.materials_reach",
    "Verif.FPhys.one_own_reach",
    "Verif.FPhys.materials_violated"
   ],
   "note": "Holds for all histories in which no holder is given the material it owns."
  },
  {
   "property": "C102",
   "status": "partial",
   "theorems": [
    "Verif.FPhys.body_clone_partial",
    "Verif.FPhys.body_clone_violated",
    "Verif.FPhys.set_rigid_body",
    "Verif.FPhys.constraint_clone_partial",
    "Verif.FPhys.model_instance_clone_partial",
    "Verif.FPhys.scene_clone_partial",
    "Verif.FPhys.model_clone_partial",
    "Verif.FPhys.model_clone_violated",
    "Verif.FPhys.mass_factor"
   ],
   "note": "Exact conditions; density, accuracy flags and constraint sub ids are not copied, constraints keep the bodies of the original, force field instances make the clone undefined."
  },
  {
   "property": "C103",
   "status": "partial",
   "theorems": [
    "Verif.FColor.color_of_floats",
    "Verif.FColor.color_round_trip",
    "Verif.FColor.color_precision",
    "Verif.FColor.color_scale",
    "Verif.FColor.color_range_violated",
    "Verif.FColor.byte_trip",
    "Verif.FColor.rounding",
    "Verif.FColor.color_of_hex",
    "Verif.FColor.color_average"
   ],
   "note": "Numbers out of range are undefined; ToFloats with more than four components gives zeros."
  },
  {
   "property": "C104",
   "status": "partial",
   "theorems": [
    "Verif.FColor.from_hsv_partial",
    "Verif.FColor.from_hsv_violated",
    "Verif.FColor.to_hsv_partial",
    "Verif.FColor.hsv_round_trip_partial",
    "Verif.FColor.hsv_range_partial",
    "Verif.FColor.to_hsv_violated"
   ],
   "note": "Exact except at hue 1, for greys (whose hue is not a number) and for components that differ by less than the tolerance."
  },
  {
   "property": "C105",
   "status": "partial",
   "theorems": [
    "Verif.FScalar.clamp_range",
    "Verif.FScalar.wrap_general",
    "Verif.FScalar.wrap_float",
    "Verif.FScalar.wrap_int_partial",
    "Verif.FScalar.wrap_uint",
    "Verif.FScalar.wrap_violated",
    "Verif.FScalar.random_ranges"
   ],
   "note": "Integers whose differences overflow are undefined; the variants of Wrap differ at whole numbers of lengths."
  },
  {
   "property": "C106",
   "status": "partial",
   "theorems": [
    "Verif.FScalar.normalized",
    "Verif.FScalar.direction_unique",
    "Verif.FScalar.normalized_violated",
    "Verif.FScalar.projection",
    "Verif.FScalar.component_clamp",
    "Verif.FScalar.component_swapped",
    "Verif.FScalar.components_partial",
    "Verif.FScalar.components_violated",
    "Verif.FScalar.angle_axis_partial",
    "Verif.FScalar.angle_axis_rotation",
    "Verif.FScalar.angle_axis_violated"
   ],
   "note": "Normalising zero differs between the two functions; component-wise minimum and maximum are swapped; components are taken without sign; a rotation by zero about opposite axes is told apart."
  },
  {
   "property": "C107",
   "status": "partial",
   "theorems": [
    "Verif.FCtrl.calls_end_partial",
    "Verif.FCtrl.base_geometry_partial",
    "Verif.FCtrl.base_geometry_controller_partial",
    "Verif.FCtrl.find_skin_partial",
    "Verif.FCtrl.set_target_partial",
    "Verif.FCtrl.chains_violated",
    "Verif.FCtrl.set_target_null_violated"
   ],
   "note": "For programs that never put a skin on a controller above it; otherwise the searches never end."
  },
  {
   "property": "C108",
   "status": "partial",
   "theorems": [
    "Verif.FCtrl.set_base_target_partial",
    "Verif.FCtrl.add_target_partial",
    "Verif.FCtrl.set_geometry_shared_partial",
    "Verif.FCtrl.set_geometry_destroys_violated",
    "Verif.FCtrl.set_geometry_same_violated",
    "Verif.FCtrl.add_target_positions_violated",
    "Verif.FCtrl.morph_targets_fit_violated"
   ],
   "note": "For the state just after the call, and for geometries tracked elsewhere; meshes without positions do not fit themselves."
  },
  {
   "property": "C109",
   "status": "proved",
   "theorems": [
    "Verif.FInst.has_for_parent",
    "Verif.FInst.find_scene_node"
   ],
   "note": ""
  },
  {
   "property": "C110",
   "status": "partial",
   "theorems": [
    "Verif.FInst.joint_list",
    "Verif.FInst.root_ids",
    "Verif.FInst.roots_cover",
    "Verif.FInst.skeleton_round_trip_partial",
    "Verif.FInst.skeleton_found",
    "Verif.FInst.skeleton_null_violated",
    "Verif.FInst.roots_minimal_violated"
   ],
   "note": "Looking up the roots needs joints in the visual scenes with unique identifiers; without roots and visual scene a null pointer is returned; a joint below another one, but not its child, is taken for a root."
  },
  {
   "property": "C111",
   "status": "partial",
   "theorems": [
    "Verif.FMat.find_material",
    "Verif.FMat.add_bound_partial",
    "Verif.FMat.bound_found_partial",
    "Verif.FMat.target_partial",
    "Verif.FMat.generated_distinct_partial",
    "Verif.FMat.bind_each_partial",
    "Verif.FMat.generated_collide_violated",
    "Verif.FMat.null_violated",
    "Verif.FMat.bindings",
    "Verif.FMat.binding_edits"
   ],
   "note": "Generated symbols meet when an identifier ends in a digit; a null material and a controller without base geometry are undefined behaviour."
  },
  {
   "property": "C112",
   "status": "partial",
   "theorems": [
    "Verif.FMat.clone_new_partial",
    "Verif.FMat.clone_material_partial",
    "Verif.FMat.clone_finds_partial",
    "Verif.FMat.clone_into_partial",
    "Verif.FMat.clone_name_violated",
    "Verif.FMat.clone_parent_violated",
    "Verif.FMat.clone_material_null_violated",
    "Verif.FMat.clone_null_entity_violated",
    "Verif.FMat.clone_into_stale_violated"
   ],
   "note": "Name, sub id and extra tree are not copied; the clone of a controller instance has no scene node; a material instance cannot be cloned into nothing; cloning into an instance with materials keeps the old ones in front. Effect parameters are opaque."
  },
  {
   "property": "C113",
   "status": "partial",
   "theorems": [
    "Verif.FEff.find_first",
    "Verif.FEff.find_all",
    "Verif.FEff.find_one_of_all",
    "Verif.FEff.find_null_violated"
   ],
   "note": "All searches are exact. A search in a material instance without a geometry instance is undefined (proved as find_null_violated)."
  },
  {
   "property": "C114",
   "status": "partial",
   "theorems": [
    "Verif.FEff.standard_names",
    "Verif.FEff.standard_numbers",
    "Verif.FEff.profile_found",
    "Verif.FEff.float_in_force",
    "Verif.FEff.color_in_force_partial",
    "Verif.FEff.default_same_partial",
    "Verif.FEff.default_null_violated",
    "Verif.FEff.fx_common_violated",
    "Verif.FEff.alpha_report_violated"
   ],
   "note": "Exact for materials with a standard profile. The report about alpha is wrong for dangling references and not written without a reference; defaults of materials without a standard profile are undefined; an FX profile typed COMMON is taken for a standard one."
  },
  {
   "property": "C115",
   "status": "partial",
   "theorems": [
    "Verif.FEff.sync_values",
    "Verif.FEff.sync_twice",
    "Verif.FEff.sync_color_partial",
    "Verif.FEff.sync_dangling_violated"
   ],
   "note": "The effect of synchronizing is exact; for a dangling reference the geometry instance keeps its value although the default is the effect's own."
  },
  {
   "property": "C116",
   "status": "partial",
   "theorems": [
    "Verif.FEff.opacity_partial",
    "Verif.FEff.opacity_violated"
   ],
   "note": "Right for alpha transparency and grey colours; for other colours only the red channel counts."
  },
  {
   "property": "C117",
   "status": "partial",
   "theorems": [
    "Verif.FTex.set_image_partial",
    "Verif.FTex.get_sampler",
    "Verif.FTex.image_released",
    "Verif.FTex.pointers_live",
    "Verif.FTex.shared_violated",
    "Verif.FTex.dot_violated",
    "Verif.FTex.id_reused_violated"
   ],
   "note": "Proved over every history for images whose ids are valid sub ids and distinct. Textures that share a sampler lose their image when one of them is given another; ids with a dot, renamed ids and ids used again give a wrong image or none (all proved)."
  },
  {
   "property": "C118",
   "status": "partial",
   "theorems": [
    "Verif.FTex.find_image",
    "Verif.FTex.add_image_partial",
    "Verif.FTex.remove_image",
    "Verif.FTex.images_distinct",
    "Verif.FTex.add_at_violated",
    "Verif.FTex.add_index_violated",
    "Verif.FTex.image_gone_violated"
   ],
   "note": "Search, removal and adding at the end are exact. Adding at an index never adds; the index given back for an image that is there is the one asked for; a released image leaves the faces of a cube map unshifted."
  },
  {
   "property": "C119",
   "status": "partial",
   "theorems": [
    "Verif.FPass.data_size",
    "Verif.FPass.default_value_partial",
    "Verif.FPass.reset_value_partial",
    "Verif.FPass.spot_direction_violated",
    "Verif.FPass.reset_spot_violated",
    "Verif.FPass.unknown_state_violated",
    "Verif.FPass.state_clone",
    "Verif.FPass.state_clone_refused"
   ],
   "note": "Proved for all 108 render states but the direction of spot lights, whose last four bytes are never written (proved). A number that is no render state gives a state with one unwritten byte. The encoding of floats is symbolic."
  },
  {
   "property": "C120",
   "status": "partial",
   "theorems": [
    "Verif.FPass.add_vertex_shader",
    "Verif.FPass.add_fragment_shader",
    "Verif.FPass.states_in_order",
    "Verif.FPass.find_state",
    "Verif.FPass.add_state",
    "Verif.FPass.add_binding",
    "Verif.FPass.clone_pass_partial",
    "Verif.FPass.clone_code",
    "Verif.FPass.clone_code_violated",
    "Verif.FPass.clone_no_profile_violated"
   ],
   "note": "Proved over every history. The clone of a shader may use another code when sub ids are equal, and a technique cloned without a profile is undefined behaviour for codes of the profile (both proved)."
  },
  {
   "property": "C121",
   "status": "partial",
   "theorems": [
    "Verif.FStd.turn_rotation",
    "Verif.FStd.up_axis_partial",
    "Verif.FStd.up_axis_violated",
    "Verif.FStd.unit_factor",
    "Verif.FStd.wanted_partial",
    "Verif.FStd.wanted_violated"
   ],
   "note": "A rotation with its inverse for all pairs; the up-axis arrives for four of six pairs, and is proved to become Y between X and Z. Units below 0.0001 are taken for none (proved)."
  },
  {
   "property": "C122",
   "status": "partial",
   "theorems": [
    "Verif.FStd.transform_partial",
    "Verif.FStd.transforms_partial",
    "Verif.FStd.look_at_partial",
    "Verif.FStd.look_at_violated"
   ],
   "note": "Proved for all types of transforms but look-ats, for which another equation is proved and this one refuted."
  },
  {
   "property": "C123",
   "status": "partial",
   "theorems": [
    "Verif.FStd.document_partial",
    "Verif.FStd.second_call_partial",
    "Verif.FStd.second_call_violated",
    "Verif.FStd.own_asset_violated",
    "Verif.FStd.unlabelled_violated",
    "Verif.FStd.library_asset_violated",
    "Verif.FStd.nested_asset_violated",
    "Verif.FStd.small_factor_violated"
   ],
   "note": "Proved for documents whose only asset is that of the document; the rules for other assets are refuted one by one. Animations and external documents are not part of this model."
  },
  {
   "property": "C124",
   "status": "partial",
   "theorems": [
    "Verif.FStd.skin_partial"
   ],
   "note": "For affine bind-poses with determinants between 2^-52 and 2^52, the range the inverse of the library is exact in."
  },
  {
   "property": "C125",
   "status": "partial",
   "theorems": [
    "Verif.FStd.pivot_partial",
    "Verif.FStd.roll_partial",
    "Verif.FStd.pivot_back_partial",
    "Verif.FStd.camera_look_at_violated"
   ],
   "note": "Proved for lists without look-ats and without rotations that are nearly pivots; a camera placed by a look-at is proved to be turned twice."
  },
  {
   "property": "C126",
   "status": "partial",
   "theorems": [
    "Verif.Curve.values_partial",
    "Verif.Curve.values_tcb_violated",
    "Verif.Curve.values_offset_violated",
    "Verif.Curve.times_partial",
    "Verif.Curve.times_violated"
   ],
   "note": "Refuted for pairs of TCB keys and, for times in another unit, Bezier keys under two-dimensional evaluation, and for offsets of Bezier keys under one-dimensional evaluation; proved for all other curves."
  },
  {
   "property": "C127",
   "status": "partial",
   "theorems": [
    "Verif.FStd.point_curves_partial",
    "Verif.FStd.direction_curves_partial",
    "Verif.FStd.scale_curves_partial",
    "Verif.FStd.length_curves_partial",
    "Verif.FStd.matrix_curves_partial",
    "Verif.FStd.position_curves_partial",
    "Verif.FStd.normal_curves_violated",
    "Verif.FStd.animation_asset_violated",
    "Verif.FStd.shared_curve_violated"
   ],
   "note": "Proved for curves that animate one value each and whose animations are in the coordinates of the value; refuted for the curves of normals, for animations with an own asset and for shared curves."
  },
  {
   "property": "C128",
   "status": "partial",
   "theorems": [
    "Verif.FFx.clone_kept",
    "Verif.FFx.clone_partial",
    "Verif.FFx.copy_eq",
    "Verif.FFx.clone_other_class",
    "Verif.FFx.clone_curves_violated",
    "Verif.FFx.clone_sampler_violated",
    "Verif.FFx.clone_cube_violated"
   ],
   "note": "Refuted for curves, for the modes of samplers, for the names and the type of surfaces and for the order of the images of cube maps; all else is proved to be kept."
  },
  {
   "property": "C129",
   "status": "partial",
   "theorems": [
    "Verif.FFx.equal_iff_partial",
    "Verif.FFx.equal_refl_symm",
    "Verif.FFx.equal_surfaces_violated",
    "Verif.FFx.clone_equal",
    "Verif.FFx.equal_trans_violated",
    "Verif.FFx.overwrite_partial",
    "Verif.FFx.overwrite_other",
    "Verif.FFx.overwrite_writes",
    "Verif.FFx.number_types",
    "Verif.FFx.overwrite_half_violated",
    "Verif.FFx.overwrite_sampler_violated",
    "Verif.FFx.overwrite_surface_violated"
   ],
   "note": "Refuted for surfaces, of which no two compare equal, and for overwriting numbers of another precision, samplers of another type and surfaces; the comparison of numbers is not transitive."
  },
  {
   "property": "C130",
   "status": "partial",
   "theorems": [
    "Verif.FFx.clone_fx_partial",
    "Verif.FFx.clone_platform_violated",
    "Verif.FFx.find_profile",
    "Verif.FFx.find_platform_partial",
    "Verif.FFx.find_platform_violated",
    "Verif.FFx.clone_effect_partial",
    "Verif.FFx.clone_common_violated"
   ],
   "note": "Refuted for the platform, for FX profiles given the type COMMON, and for the search with the type COMMON, which is undefined behaviour; sub ids of the codes within reach are taken to be distinct (see C120)."
  },
  {
   "property": "C131",
   "status": "partial",
   "theorems": [
    "Verif.FFx.clone_standard_partial",
    "Verif.FFx.clone_release_violated",
    "Verif.FFx.clone_flags_violated",
    "Verif.FFx.clone_slot_reference_violated",
    "Verif.FFx.clone_effect_partial"
   ],
   "note": "Proved while the original lives, with the additional samplers in view; refuted after it is released, for the flags of reflection and refraction and for the references of colours."
  },
  {
   "property": "C132",
   "status": "partial",
   "theorems": [
    "Verif.FFx.clone_material",
    "Verif.FFx.clone_material_deep_violated",
    "Verif.FFx.clone_hints_violated"
   ],
   "note": "Proved for copies without the children, apart from the technique hints; refuted with the children: the clone has no effect."
  },
  {
   "property": "C133",
   "status": "partial",
   "theorems": [
    "Verif.FSpline.linear_to_bezier_partial",
    "Verif.FSpline.linear_to_nurbs",
    "Verif.FSpline.linear_to_bezier_violated",
    "Verif.FSpline.linear_too_short_violated"
   ],
   "note": "Proved unless an open spline is converted into a Bezier spline that was closed, where it is refuted; a linear spline that is too short leaves the old vertices."
  },
  {
   "property": "C134",
   "status": "partial",
   "theorems": [
    "Verif.FSpline.bezier_to_nurbs_open",
    "Verif.FSpline.bezier_to_nurbs_closed_partial",
    "Verif.FSpline.converted_valid",
    "Verif.FSpline.closed_small_violated",
    "Verif.FSpline.closed_documented_violated",
    "Verif.FSpline.closed_count_violated"
   ],
   "note": "Proved for every open spline, and for closed splines with three vertices for each knot; refuted for other counts and for closed splines as the class describes them."
  },
  {
   "property": "C135",
   "status": "partial",
   "theorems": [
    "Verif.FSpline.splines_have_type",
    "Verif.FSpline.add_spline",
    "Verif.FSpline.clone_same",
    "Verif.FSpline.clone_into_partial",
    "Verif.FSpline.clone_into_violated",
    "Verif.FSpline.total_cvs",
    "Verif.FSpline.convert_open",
    "Verif.FSpline.nurbs_valid",
    "Verif.FSpline.nurbs_add_cv",
    "Verif.FSpline.cleared_nurbs_violated",
    "Verif.FSpline.empty_bezier_violated",
    "Verif.FSpline.bezier_valid_partial",
    "Verif.FSpline.geometry_one"
   ],
   "note": "Proved but for copies into a geometric spline that has splines, for NURBS splines that were cleared and for empty Bezier splines, where it is refuted."
  },
  {
   "property": "C136",
   "status": "partial",
   "theorems": [
    "Verif.FEnt.asset_clone",
    "Verif.FEnt.asset_clone_into_partial",
    "Verif.FEnt.asset_clone_into_violated",
    "Verif.FEnt.contributor_empty"
   ],
   "note": "Proved for copies into a new asset; a copy into an asset that has flags keeps them."
  },
  {
   "property": "C137",
   "status": "partial",
   "theorems": [
    "Verif.FEnt.entity_clone_partial",
    "Verif.FEnt.camera_clone_violated",
    "Verif.FEnt.entity_asset_violated"
   ],
   "note": "Proved for the classes other than cameras and lights, without the asset; refuted for cameras, lights and assets."
  },
  {
   "property": "C138",
   "status": "partial",
   "theorems": [
    "Verif.FEnt.targets_counted_partial",
    "Verif.FEnt.is_target",
    "Verif.FEnt.released_target_violated"
   ],
   "note": "Proved as long as no targeted entity is released; after a release the count is too high, never too low."
  },
  {
   "property": "C139",
   "status": "partial",
   "theorems": [
    "Verif.FEnt.camera_aspect_partial",
    "Verif.FEnt.camera_documented_violated",
    "Verif.FEnt.camera_zero_violated"
   ],
   "note": "The aspect ratio is the horizontal view over the vertical one; the documented quotient is the inverse. A vertical view of zero divides by zero."
  },
  {
   "property": "C140",
   "status": "partial",
   "theorems": [
    "Verif.Penumbra.angles",
    "Verif.Penumbra.not_animated",
    "Verif.Penumbra.penumbra_animated_partial",
    "Verif.Penumbra.shared_animation_partial",
    "Verif.Penumbra.negative_penumbra_partial",
    "Verif.Penumbra.shared_animation_violated",
    "Verif.Penumbra.created_channel_violated",
    "Verif.Penumbra.documented_violated"
   ],
   "note": "Proved for the angles themselves and for an animated penumbra: non-negative with any keys, non-positive with linear keys and no new channel. Refuted for an animated fall-off angle with a penumbra and for a negative animated penumbra with a new channel, and in the form of the header, which has the penumbra once instead of twice."
  },
  {
   "property": "C141",
   "status": "partial",
   "theorems": [
    "Verif.Penumbra.both_keys",
    "Verif.Penumbra.both_linear_partial",
    "Verif.Penumbra.both_linear_ends",
    "Verif.Penumbra.steps_violated",
    "Verif.Penumbra.mixed_violated"
   ],
   "note": "The values at all keys of the result are proved for all curves; the values at each time for linear curves without a change of sign; that the call ends for all linear curves. Refuted for step keys, where the search does not end, and for a change of sign between a linear and a Bezier key."
  },
  {
   "property": "C142",
   "status": "partial",
   "theorems": [
    "Verif.FArc.float_source_roundtrip",
    "Verif.FArc.vector_source_roundtrip",
    "Verif.FArc.point_source_roundtrip",
    "Verif.FArc.matrix_source_roundtrip",
    "Verif.FArc.names_source_partial",
    "Verif.FArc.names_source_violated",
    "Verif.FArc.source_ids"
   ],
   "note": "Proved for all lists of numbers, vectors and matrices, and for names that are words; refuted for names that are empty or hold blanks. The formatting of a number is any that meets the specification of C63."
  },
  {
   "property": "C143",
   "status": "partial",
   "theorems": [
    "Verif.FArc.extra_roundtrip_partial",
    "Verif.FArc.extra_empty",
    "Verif.FArc.technique_merged",
    "Verif.FArc.extra_violated"
   ],
   "note": "Proved for all trees with distinct types and profiles and without % in contents, types and profiles; refuted for a type without nodes anywhere, for the content of a node with child nodes, and for % in a profile. Animations of the nodes are not modelled."
  },
  {
   "property": "C144",
   "status": "partial",
   "theorems": [
    "Verif.FArc.asset_roundtrip_partial",
    "Verif.FArc.asset_violated"
   ],
   "note": "Proved for texts without %, the three positive axes and units above the tolerance of the library; a source is read back as the address of the file. Refuted for texts with %, the axis -Y, a unit of a micron, and in the form that a source is read back as it was."
  },
  {
   "property": "C145",
   "status": "partial",
   "theorems": [
    "Verif.FArc.entity_roundtrip_partial",
    "Verif.FArc.asset_kept",
    "Verif.FArc.entity_violated"
   ],
   "note": "Proved for texts without % and extra trees without a parameter called as the note or the target; an entity without name is read back with its id as name, and an empty technique of the library is released by saving, or present after loading. Refuted for such parameters and for % in the name."
  },
  {
   "property": "C146",
   "status": "partial",
   "theorems": [
    "Verif.FArc.set_roundtrip_partial",
    "Verif.FArc.set_violated"
   ],
   "note": "Proved for all kinds of primitives but points, with the per-vertex inputs at the offset 0, known types, and faces that have no more corners than there are positions; the inputs of the per-vertex sources come first after loading. Refuted for points, for per-vertex inputs at another offset, for larger faces, for inputs of unknown type and for meshes without per-vertex sources or positions. Animations of sources are not modelled."
  },
  {
   "property": "C147",
   "status": "partial",
   "theorems": [
    "Verif.FArc.mesh_roundtrip_partial",
    "Verif.FArc.geometry_source_partial",
    "Verif.FArc.hull_roundtrip",
    "Verif.FArc.mesh_violated"
   ],
   "note": "Proved for meshes with one source of positions, which is per-vertex, whose sources are of types that are written and have only the default type in their extra trees, and whose per-vertex sources have the same set number in all polygon sets. Refuted for the convex flag without hull, the types of unused sources, sources of point sizes, types in the extra trees of sources and set numbers that differ between polygon sets. Animations of sources are not modelled."
  },
  {
   "property": "C148",
   "status": "partial",
   "theorems": [
    "Verif.FArc.sid_given_partial",
    "Verif.FArc.sid_own",
    "Verif.FArc.sid_violated"
   ],
   "note": "Proved for elements without id and sub-id in scopes whose sub-ids have no percent sign; a sub-id is always given if fewer than 99 are in use. Refuted for elements with an id, scopes with all of the 99 candidates in use, and sub-ids with a percent sign."
  },
  {
   "property": "C149",
   "status": "partial",
   "theorems": [
    "Verif.FArc.transforms_roundtrip_partial",
    "Verif.FArc.skew_axes",
    "Verif.FArc.transforms_violated"
   ],
   "note": "Proved for all lists of transforms whose sub-ids are clean and have at most 510 characters, except for skews with an axis at the origin; the axes of skews come back with length 1, for every function taken as the length. Refuted for the axes of skews. Animations are not modelled."
  },
  {
   "property": "C150",
   "status": "partial",
   "theorems": [
    "Verif.FArc.scene_roundtrip_partial",
    "Verif.FArc.scene_links_partial",
    "Verif.FArc.scene_violated"
   ],
   "note": "Proved for all trees with clean ids and sub-ids: the tree that is read back is given exactly, and no link is lost if all lead to nodes whose elements start before. Refuted: links to nodes further on are lost, links move before the other children, the visibility 1/2 becomes 1, and a failure is forgotten when a child node follows. Instances of other entities are kept as elements; animated values, force fields and emitters are not modelled."
  },
  {
   "property": "C151",
   "status": "partial",
   "theorems": [
    "Verif.FArc.camera_roundtrip_partial",
    "Verif.FArc.camera_views_stable",
    "Verif.FArc.camera_violated"
   ],
   "note": "Proved for all cameras: what is read back is given exactly, and it stays the same when saved and loaded again. Refuted: an aspect ratio set beside both views becomes their quotient, or 1 if the horizontal view is zero, and is not finite if the vertical view is zero; a camera with no view set has a vertical view afterwards. Animated values are not modelled."
  },
  {
   "property": "C152",
   "status": "partial",
   "theorems": [
    "Verif.FArc.light_roundtrip_partial",
    "Verif.FArc.light_violated"
   ],
   "note": "Proved for all lights: what is read back is given exactly, for extra trees without parameters called as the values of lights, and saving leaves the light as it was. Refuted: values that the type of light does not have in a file are lost, parameters of the user with the names of values are taken for them, and a light element without technique_common is a NULL dereference. Animated values are not modelled."
  },
  {
   "property": "C153",
   "status": "partial",
   "theorems": [
    "Verif.FArc.skin_roundtrip_partial",
    "Verif.FArc.skin_weights_kept",
    "Verif.FArc.skin_loaded_valid",
    "Verif.FArc.skin_violated",
    "Verif.FArc.skin_file_violated"
   ],
   "note": "Proved for all skins whose joints have words for ids: what is read back is given exactly, and weights that add up to 0 or 1 are kept; every skin that is loaded from any file names joints that exist, or -1, and its weights add up to about 0 or 1. Refuted: other weights are scaled, weights near 1 become 1, empty ids of joints are lost so that pairs name other joints, and files without the numbers or with too few of them are read out of bounds. Numbers of joints and weights below 2^31."
  },
  {
   "property": "C154",
   "status": "partial",
   "theorems": [
    "Verif.FArc.morph_roundtrip_partial",
    "Verif.FArc.morph_kept",
    "Verif.FArc.morph_loaded_valid",
    "Verif.FArc.morph_violated",
    "Verif.FArc.morph_controller_base_violated",
    "Verif.FArc.morph_file_violated"
   ],
   "note": "Proved for all morphers: what is read back and linked is given exactly, morphers on geometries with fitting targets are kept, and after any file the targets fit the base. Refuted: a base that is a controller is always lost, targets without geometry are lost, an unknown method becomes NORMALIZED, and files without targets or with fewer weights than targets are undefined behaviour. The animation of weights is not modelled."
  },
  {
   "property": "C155",
   "status": "partial",
   "theorems": [
    "Verif.FArc.libraries_ordered",
    "Verif.FArc.libraries_in_order",
    "Verif.FArc.document_roundtrip_partial",
    "Verif.FArc.document_violated",
    "Verif.FArc.lastScene_violated"
   ],
   "note": "Proved for every file: the order of loading and which elements are loaded for each kind; proved for every document without the faults below: it is loaded as it was saved. Refuted: the extra tree of an empty library of animations or emitters, the asset of an empty library, and a document extra of type libraries are lost; of two visual scene instances the last is kept. Entities are taken as elements here; their own contents are in C142-C154."
  },
  {
   "property": "C156",
   "status": "partial",
   "theorems": [
    "Verif.FArc.material_roundtrip",
    "Verif.FArc.geometry_kept",
    "Verif.FArc.instance_roundtrip_partial",
    "Verif.FArc.instance_violated",
    "Verif.FArc.geometry_roundtrip_partial",
    "Verif.FArc.geometry_violated",
    "Verif.FArc.controller_roundtrip_partial",
    "Verif.FArc.controller_violated"
   ],
   "note": "Proved for every instance of a material: it is read back. Proved for every instance of the other kinds: exactly what is read back. Refuted: the extra tree of an instance of a camera, a light or a node is lost; that of an instance of a controller comes back with each node twice; effect parameters are lost unless there are materials and they are written as param; an instance without materials gets those named as the symbols of the polygons. References to other documents are left out."
  },
  {
   "property": "C157",
   "status": "partial",
   "theorems": [
    "Verif.FArc.channels_loaded",
    "Verif.FArc.interpolations_violated",
    "Verif.FArc.channels_roundtrip_partial",
    "Verif.FArc.channels_violated",
    "Verif.FArc.collision_violated",
    "Verif.FArc.failed_channel_violated"
   ],
   "note": "Proved for all animations whose ids do not collide: exactly what is read back. Refuted: the interpolations that are read are those found in memory that was never set; a channel of several curves becomes several channels; a curve without keys loses its infinities and its driver; a driver with a negative index gets the index zero; ids with equal CRC-32 exchange data; after a channel that fails, no channel is kept. Merged curves are left out."
  },
  {
   "property": "C158",
   "status": "partial",
   "theorems": [
    "Verif.FArc.channels_found",
    "Verif.FArc.array_indices",
    "Verif.FArc.curves_linked",
    "Verif.FArc.others_skipped",
    "Verif.FArc.kinds_wellNamed",
    "Verif.FArc.drivers_linked",
    "Verif.FArc.values_roundtrip_partial",
    "Verif.FArc.unnamed_violated",
    "Verif.FArc.array_violated",
    "Verif.FArc.qualifier_violated",
    "Verif.FArc.driver_report_violated"
   ],
   "note": "Proved for all values whose qualifiers tell their floats apart, which those of all kinds of parameters do: each float gets exactly its curves; with C157, saved values come back with their curves. Refuted: floats without qualifiers are mixed up; a channel without a qualifier gives its first curve to all elements of an array; the second index of a qualifier in brackets is ignored; unknown qualifiers drive some float of a look-at; a missing driver is reported exactly where it was found. The computation of pointers is left out."
  },
  {
   "property": "C159",
   "status": "partial",
   "theorems": [
    "Verif.FJoint.joints_linked",
    "Verif.FJoint.no_skin",
    "Verif.FJoint.joints_roundtrip_partial",
    "Verif.FJoint.target_linked",
    "Verif.FJoint.target_missing",
    "Verif.FJoint.shift_violated",
    "Verif.FJoint.sids_violated",
    "Verif.FJoint.no_scene_violated",
    "Verif.FJoint.extern_violated"
   ],
   "note": "Proved for all reachable scene graphs: the joints are the nodes that are found, in order, each below the first root that has one; with computed roots and unique names the joints come back. Refuted: a joint without a node is left out and the later ones change their index; sub-ids that two skeletons share; no visual scene and no roots (null pointer); targets in other files."
  },
  {
   "property": "C160",
   "status": "partial",
   "theorems": [
    "Verif.FArc.clip_roundtrip_partial",
    "Verif.FArc.clip_resaved_violated",
    "Verif.FArc.clip_violated"
   ],
   "note": "Proved for all clips: the common part, the times and one instance for each animation of the curves, in order. Refuted: a loaded clip never has curves, so saving it again writes no animations; instances without curves and the names of instances are not written."
  },
  {
   "property": "C161",
   "status": "partial",
   "theorems": [
    "Verif.FArc.tree_roundtrip_partial",
    "Verif.FArc.tree_resaved_violated"
   ],
   "note": "Proved for all trees by mutual induction. Refuted: the targets of the channels are added to the extra tree of a loaded animation, which is made transient: extra tree and note are lost when it is saved again."
  },
  {
   "property": "C162",
   "status": "partial",
   "theorems": [
    "Verif.FArc.surface_roundtrip_partial",
    "Verif.FArc.surface_images_partial",
    "Verif.FArc.surface_violated"
   ],
   "note": "Proved for all surfaces: exactly what comes back; the images come back when all are written. Refuted: images written one by one for faces, slices or mip levels are loaded as one name; a surface without size is loaded with an indeterminate size and ratio 0; the generation of mip maps is not written; the images of a cube with other than six faces are lost."
  },
  {
   "property": "C163",
   "status": "partial",
   "theorems": [
    "Verif.FArc.parameter_roundtrip_partial",
    "Verif.FArc.animator_partial",
    "Verif.FArc.sampler_linked",
    "Verif.FArc.parameter_violated"
   ],
   "note": "Proved for all parameters that declare or change a value, of every class, and for floats that bind animations. Refuted for parameters that refer to others, constants, vectors that bind animations, the semantic of changes, annotations of other types, the linear filter and wrap modes that a sampler does not use. Animations of the values are not modelled."
  },
  {
   "property": "C164",
   "status": "partial",
   "theorems": [
    "Verif.FArc.render_state_roundtrip_partial",
    "Verif.FArc.render_state_replaced",
    "Verif.FArc.state_names_distinct",
    "Verif.FArc.spot_direction_saved_violated",
    "Verif.FArc.texture_env_mode_violated"
   ],
   "note": "Proved for 107 of the 108 kinds of state and all values; 106 kinds replace whatever the data held before. Refuted for LIGHT_SPOT_DIRECTION, documented with four floats of which three are saved, and for the text of TEXTURE_ENV_MODE loaded over a longer one."
  },
  {
   "property": "C165",
   "status": "partial",
   "theorems": [
    "Verif.FArc.pass_roundtrip_partial",
    "Verif.FArc.pass_states_sorted",
    "Verif.FArc.shader_code_kept",
    "Verif.FArc.shader_violated"
   ],
   "note": "Proved for passes with named shaders and complete bindings. Refuted for a shader without name, for bindings without reference or symbol, and for a code of the profile with the sub-id of a code of the technique."
  },
  {
   "property": "C166",
   "status": "partial",
   "theorems": [
    "Verif.FArc.technique_roundtrip_partial",
    "Verif.FArc.profile_roundtrip_partial",
    "Verif.FArc.technique_code_found",
    "Verif.FArc.code_place",
    "Verif.FArc.technique_violated",
    "Verif.FArc.profile_setparam_violated",
    "Verif.FArc.shader_without_code_violated"
   ],
   "note": "Proved for profiles and techniques whose codes all get a sub-id. Refuted for a technique without passes, for parameters of a profile that change a value and for shaders without code next to codes without sub-id."
  },
  {
   "property": "C167",
   "status": "partial",
   "theorems": [
    "Verif.FArc.common_roundtrip_partial",
    "Verif.FArc.textured_color_violated",
    "Verif.FArc.texture_set_violated",
    "Verif.FArc.shininess_violated",
    "Verif.FArc.spec_level_violated",
    "Verif.FArc.refraction_violated",
    "Verif.FArc.emission_violated",
    "Verif.FArc.unknown_lighting_violated",
    "Verif.FArc.generator_color_violated",
    "Verif.FArc.saving_adds_sampler_violated"
   ],
   "note": "Proved for what the lighting and the flags of a profile make use of; it says for each channel and parameter whether it comes back. Refuted for the values of textured parameters, the numbers of texture sets, textures of a specular level of one, refraction textures, the emission colour besides an emission level, the unknown lighting and parameters that are neither constant nor references."
  },
  {
   "property": "C168",
   "status": "partial",
   "theorems": [
    "Verif.FArc.image_roundtrip_partial",
    "Verif.FArc.material_roundtrip_partial",
    "Verif.FArc.image_file_violated",
    "Verif.FArc.image_root_violated",
    "Verif.FArc.material_hints_violated",
    "Verif.FArc.material_empty_violated",
    "Verif.FArc.material_newparam_violated",
    "Verif.FArc.material_unlinked_violated"
   ],
   "note": "Proved for files with names without separators and delimiters of URIs and documents outside the root folder, and for materials with an effect of the document. Refuted for file names with a number sign or a question mark, documents in the root folder, hints of a material that is loaded again, material elements without an effect, parameters that declare a value, materials whose effect is not there."
  },
  {
   "property": "C169",
   "status": "partial",
   "theorems": [
    "Verif.FArc.effect_roundtrip_partial",
    "Verif.FArc.effect_asset_violated",
    "Verif.FArc.effect_profiles_violated",
    "Verif.FArc.effect_unknown_violated",
    "Verif.FArc.effect_element_violated",
    "Verif.FArc.effect_images"
   ],
   "note": "Proved for effects with profiles of known types, up to what parameters and profiles lose (C163, C166, C167) and the warning. Refuted: each asset of an effect gives a warning about an unsupported profile, old profiles stay when an effect is loaded, a profile of an unknown type is lost, another element is read as an effect."
  },
  {
   "property": "C170",
   "status": "partial",
   "theorems": [
    "Verif.FArc.texture_image_partial",
    "Verif.FArc.sampler_nearest",
    "Verif.FArc.sampler_hidden_violated",
    "Verif.FArc.sampler_scope_violated",
    "Verif.FArc.sampler_unset_violated",
    "Verif.FArc.texture_image_direct"
   ],
   "note": "Proved from end to end for parameters of different references and surfaces whose images are all written. Refuted: a nearer parameter that is not a surface hides the surface, a sampler of the effect does not find a surface of the profile nor one of a material a surface of the effect, a sampler without a surface gets one that has no reference."
  },
  {
   "property": "C171",
   "status": "partial",
   "theorems": [
    "Verif.FLinkData.imports_completed_partial",
    "Verif.FLinkData.nothing_left_partial",
    "Verif.FLinkData.fetched_between_violated",
    "Verif.FLinkData.external_skin_violated",
    "Verif.FLinkData.circle_violated",
    "Verif.FLinkData.count_raised_violated"
   ],
   "note": "Proved for files without circles that fetch no file between noting and reading, and for histories without foreign root elements and cancelled imports. Refuted for all files that fetch another file in between, that link a skin of another file, that refer to each other in a circle, and after a foreign root element or a cancelled import."
  },
  {
   "property": "C172",
   "status": "partial",
   "theorems": [
    "Verif.FArc.spline_back",
    "Verif.FArc.spline_roundtrip_partial",
    "Verif.FArc.splines_lost_violated",
    "Verif.FArc.splines_at_most_one",
    "Verif.FArc.spline_empty_violated",
    "Verif.FArc.spline_name_violated",
    "Verif.FArc.spline_type_violated",
    "Verif.FArc.spline_degree_violated",
    "Verif.FArc.spline_refused",
    "Verif.FArc.spline_no_vertices",
    "Verif.FArc.spline_degree_default"
   ],
   "note": "Proved for a geometry with one valid spline, up to its name. Refuted for every geometry with several splines (only the last survives), without splines, for names, unknown types and a degree that was never set."
  },
  {
   "property": "C173",
   "status": "partial",
   "theorems": [
    "Verif.FArc.solid_roundtrip_partial",
    "Verif.FArc.plane_violated",
    "Verif.FArc.plane_kept_iff",
    "Verif.FArc.solid_kind"
   ],
   "note": "Proved for every analytical shape but planes; refuted for every plane whose four numbers are not the same."
  },
  {
   "property": "C174",
   "status": "partial",
   "theorems": [
    "Verif.FArc.physics_material_roundtrip",
    "Verif.FArc.shape_roundtrip_partial",
    "Verif.FArc.shape_loaded_violated",
    "Verif.FArc.shape_mass_violated"
   ],
   "note": "Proved for all physics materials of the library and for shapes without a material of their own whose mass and density are not zero and whose transforms are rotations and translations. Refuted for materials owned by a shape, other transforms, and a mass or density of zero. Instances of geometries and materials are not modelled."
  },
  {
   "property": "C175",
   "status": "partial",
   "theorems": [
    "Verif.FArc.constraint_roundtrip_partial",
    "Verif.FArc.spring_violated",
    "Verif.FArc.spring_read",
    "Verif.FArc.places_kept_iff",
    "Verif.FArc.flag_violated",
    "Verif.FArc.attach_violated",
    "Verif.FArc.places_status_violated"
   ],
   "note": "Proved for ends, flags, limits, and transforms that are rotations followed by translations. Refuted for every spring that is not the default one, other orders and kinds of transforms, flags that are neither 0 nor 1, ambiguous ends, and the reporting of transforms that cannot be read."
  },
  {
   "property": "C176",
   "status": "partial",
   "theorems": [
    "Verif.FArc.body_roundtrip_partial",
    "Verif.FArc.body_density_violated",
    "Verif.FArc.body_empty_violated",
    "Verif.FArc.body_from_shapes",
    "Verif.FArc.body_default",
    "Verif.FArc.scene_values_roundtrip"
   ],
   "note": "Proved for scenes and for the flag, mass, mass frame, own material, shapes and accurate inertia of a body. Refuted for the density, which is always lost, and for bodies without mass and shapes, whose density is not a number."
  },
  {
   "property": "C177",
   "status": "partial",
   "theorems": [
    "Verif.FArc.whole_roundtrip_partial",
    "Verif.FArc.libraries_independent",
    "Verif.FArc.library_asset_violated"
   ],
   "note": "Proved for all documents whose parts can be saved. Refuted for the assets of libraries without entities; the entities of the other libraries are elements here, and linking is not part of it."
  },
  {
   "property": "C178",
   "status": "partial",
   "theorems": [
    "Verif.FArc.geometry_mesh_roundtrip_partial",
    "Verif.FArc.geometry_spline_roundtrip_partial",
    "Verif.FArc.geometry_empty_roundtrip",
    "Verif.FArc.geometry_first_mesh",
    "Verif.FArc.geometry_other_element",
    "Verif.FArc.controller_skin_roundtrip_partial",
    "Verif.FArc.controller_morph_roundtrip_partial",
    "Verif.FArc.controller_skin_wins"
   ],
   "note": "Proved for geometries and controllers whose parts meet the conditions of C147, C172, C153 and C154 and which have no target. What those leave out is left out here."
  },
  {
   "property": "C179",
   "status": "partial",
   "theorems": [
    "Verif.FArc.pointer_address",
    "Verif.FArc.pointer_named",
    "Verif.FArc.pointer_none",
    "Verif.FArc.pointer_unique_partial",
    "Verif.FArc.pointer_shared_violated",
    "Verif.FArc.pointer_empty_violated",
    "Verif.FArc.pointer_slash_violated"
   ],
   "note": "The form of addresses is proved for all files. That different elements have different ones is proved for files where no name is used twice in its scope or has a slash, and refuted otherwise."
  },
  {
   "property": "C180",
   "status": "partial",
   "theorems": [
    "Verif.FHull.hull_link_defined",
    "Verif.FHull.hull_others_kept",
    "Verif.FHull.hull_linked_partial",
    "Verif.FHull.hull_found",
    "Verif.FHull.hull_origin",
    "Verif.FHull.hull_forgotten_violated",
    "Verif.FHull.hull_order_violated",
    "Verif.FHull.hull_hash_violated",
    "Verif.FHull.hull_circle_violated"
   ],
   "note": "Proved for hulls of plain meshes and for the search without circles. Refuted: the name is lost, hulls of hulls depend on the order, names with a number sign are not found, circles are searched forever."
  },
  {
   "property": "C181",
   "status": "partial",
   "theorems": [
    "Verif.FPlugin.archive_for_extension",
    "Verif.FPlugin.archive_for_file_partial",
    "Verif.FPlugin.extension_supported",
    "Verif.FPlugin.extension_numbered",
    "Verif.FPlugin.extension_added",
    "Verif.FPlugin.extensions_differ",
    "Verif.FPlugin.extension_removed",
    "Verif.FPlugin.plug_save_load_partial",
    "Verif.FPlugin.plug_last",
    "Verif.FPlugin.plug_unnamed",
    "Verif.FPlugin.archive_hash_violated",
    "Verif.FPlugin.extension_case_violated",
    "Verif.FPlugin.extension_number_violated",
    "Verif.FPlugin.plug_nodes_violated",
    "Verif.FPlugin.plug_missing_violated",
    "Verif.FPlugin.plug_hash_violated"
   ],
   "note": "Proved for absolute file names without #, : and backslash and for techniques as after loading. Refuted: file names with #, extensions added and removed by exact case, negative numbers, nodes beside an object, objects without a plug-in, profiles with equal hashes."
  },
  {
   "property": "C182",
   "status": "partial",
   "theorems": [
    "Verif.FLoad.load_all",
    "Verif.FLoad.load_status",
    "Verif.FLoad.load_status_partial",
    "Verif.FLoad.load_success",
    "Verif.FLoad.load_part",
    "Verif.FLoad.load_stops",
    "Verif.FLoad.load_stopped_partial",
    "Verif.FLoad.load_hidden_violated",
    "Verif.FLoad.stop_once_violated",
    "Verif.FLoad.stop_last_violated",
    "Verif.FLoad.load_count_violated",
    "Verif.FLoad.load_driver_violated"
   ],
   "note": "The status is characterised for all files; it is as wanted without visual scenes and controllers. Stopping is proved for a user who keeps to the answer and gives it before the last library. Refuted: failures in files with a visual scene are hidden, a single answer to stop is forgotten, stopping in the last library succeeds, the count of documents stays raised, drivers fail the loading when errors are not fatal."
  },
  {
   "property": "C183",
   "status": "partial",
   "theorems": [
    "Verif.FArc.body_inst_partial",
    "Verif.FArc.model_inst_partial",
    "Verif.FArc.body_inst_default",
    "Verif.FArc.body_named_violated",
    "Verif.FArc.inst_target_violated",
    "Verif.FArc.inst_force_violated",
    "Verif.FArc.inst_model_violated",
    "Verif.FArc.inst_order_violated"
   ],
   "note": "The round trip is proved for lists of any length of instances of bodies with an accurate inertia, and of constraints. Refuted: files where another object has the name of a body, force fields, instances without a node or without a model, and the order between bodies and constraints."
  },
  {
   "property": "C184",
   "status": "partial",
   "theorems": [
    "Verif.FArc.phys_model_roundtrip_partial",
    "Verif.FArc.phys_model_other",
    "Verif.FArc.attach_all",
    "Verif.FArc.attach_order_partial",
    "Verif.FArc.attach_order_violated",
    "Verif.FArc.rbody_status_violated",
    "Verif.FArc.late_body_violated"
   ],
   "note": "The round trip is proved for models of any size, with the limits of C175 and C176. Refuted: the order of the instances depends on addresses in memory, a failure in a shape is not reported, a constraint before its body loses it."
  },
  {
   "property": "C185",
   "status": "partial",
   "theorems": [
    "Verif.FArc.custom_linked_partial",
    "Verif.FArc.custom_kept",
    "Verif.FArc.custom_whole",
    "Verif.FArc.custom_again_partial",
    "Verif.FArc.custom_mixed_violated",
    "Verif.FArc.custom_second_violated",
    "Verif.FArc.custom_resave_violated",
    "Verif.FArc.custom_bare_violated"
   ],
   "note": "Proved for channels that all have a qualifier and one curve, and for one channel without a qualifier. Refuted: mixtures of the two lose curves, as do channels with a qualifier and more curves; floats without names are merged after saving; floats without curves are dropped."
  },
  {
   "property": "C186",
   "status": "partial",
   "theorems": [
    "Verif.FArc.layers_roundtrip_partial",
    "Verif.FArc.layers_other_scene",
    "Verif.FArc.layer_unnamed_violated",
    "Verif.FArc.layer_blank_violated",
    "Verif.FArc.layer_techniques_violated"
   ],
   "note": "Proved for scenes without extra data of their own, with named layers of words. Refuted: layers without a name, objects with blanks; empty techniques stay in the extra tree of the scene."
  },
  {
   "property": "C187",
   "status": "partial",
   "theorems": [
    "Verif.FSample.keys_sampled",
    "Verif.FSample.times_from_keys",
    "Verif.FSample.times_increasing_partial",
    "Verif.FSample.wrap_parts",
    "Verif.FSample.wraps_sampled_partial",
    "Verif.FSample.values_sampled",
    "Verif.FSample.node_moved_violated",
    "Verif.FSample.angle_shifted_violated",
    "Verif.FSample.close_keys_violated"
   ],
   "note": "Keys, origin of the times and matrices are proved for all nodes; the order for curves without equivalent keys, large rotations for nodes all of whose transforms have curves. Refuted: the order for equivalent keys, large rotations behind a transform without curves, that the node does not change."
  },
  {
   "property": "C188",
   "status": "partial",
   "theorems": [
    "Verif.FInfl.apply_defined_partial",
    "Verif.FInfl.apply_influence",
    "Verif.FInfl.apply_other",
    "Verif.FInfl.unused_vertex_violated",
    "Verif.FInfl.nothing_packed_violated"
   ],
   "note": "Proved for maps with all vertices that have influences. Refuted: vertices that are not in the map are read behind its end; places that no vertex has are not set, such as the one place when nothing is packed."
  },
  {
   "property": "C189",
   "status": "partial",
   "theorems": [
    "Verif.FSub.clean_changes",
    "Verif.FSub.clean_nodes_changes",
    "Verif.FSub.sub_ids_unique_partial",
    "Verif.FSub.node_sub_ids_unique_partial",
    "Verif.FSub.clean_keeps",
    "Verif.FSub.clean_nodes_keeps",
    "Verif.FSub.sub_ids_violated",
    "Verif.FSub.zeros_violated"
   ],
   "note": "Uniqueness is proved unless a name ends in the number 4294967294. Refuted: with such a name two sub-ids can become equal; a unique sub-id changes if it differs from another in leading zeros only."
  },
  {
   "property": "C190",
   "status": "partial",
   "theorems": [
    "Verif.FScheme.remove_all",
    "Verif.FScheme.remove_scheme",
    "Verif.FScheme.set_scheme_partial",
    "Verif.FScheme.clone_callbacks_partial",
    "Verif.FScheme.resolved",
    "Verif.FScheme.set_again_violated",
    "Verif.FScheme.set_twice_violated",
    "Verif.FScheme.clone_null_violated",
    "Verif.FScheme.openers_loop_violated"
   ],
   "note": "Proved for callbacks that no manager has yet, and for cloning without NULL callbacks. Refuted: setting the callbacks that a scheme has already, or the same ones for two schemes; cloning NULL callbacks; openers that take their own files."
  },
  {
   "property": "C191",
   "status": "partial",
   "theorems": [
    "Verif.FReg.all_linked_partial",
    "Verif.FReg.open_linked",
    "Verif.FReg.open_right",
    "Verif.FReg.open_keeps",
    "Verif.FReg.all_documents",
    "Verif.FReg.all_documents_violated"
   ],
   "note": "Proved for top documents; closing documents and changing urls are not modelled. Refuted: documents that are reached through more than one placeholder are not found."
  }
 ]
}