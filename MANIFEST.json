{
 "claims": [
  {
   "property": "C01",
   "status": "proved",
   "theorems": [
    "GoSvg.C01_number_list",
    "GoSvg.C01_number_list_exact",
    "GoSvg.C01_float64"
   ],
   "note": "any arithmetic; exact values in real arithmetic; nearest numbers in binary64"
  },
  {
   "property": "C02",
   "status": "proved",
   "theorems": [
    "GoSvg.C02_run_together",
    "GoSvg.C02_run_together_exact",
    "GoSvg.C02_float64"
   ],
   "note": "any arithmetic; exact values in real arithmetic; nearest numbers in binary64"
  },
  {
   "property": "C03",
   "status": "proved",
   "theorems": [
    "GoSvg.C03_units",
    "GoSvg.C03_units_exact",
    "GoSvg.C03_rejects_others",
    "GoSvg.C03_float64",
    "GoSvg.C76_length"
   ],
   "note": "any arithmetic; the values are exact in real arithmetic, and in binary64 for numbers on a binary grid with a unit of whole pixels; C76_length bounds the error in binary64 for all units"
  },
  {
   "property": "C04",
   "status": "proved",
   "theorems": [
    "GoSvg.C04_percent",
    "GoSvg.C04_not_percent",
    "GoSvg.C15_ellipse",
    "GoSvg.C15_zero_radius",
    "GoSvg.C16_empty",
    "GoSvg.C16_corners",
    "GoSvg.C17_line",
    "GoSvg.C63_lengths_partial"
   ],
   "note": "C04_percent and C04_not_percent say what each kind of reference means; the theorems on the elements (Len in their hypotheses) and on style lengths (LengthText) say which attribute uses which"
  },
  {
   "property": "C05",
   "status": "proved",
   "theorems": [
    "GoSvg.C05_quantised",
    "GoSvg.C05_float64"
   ],
   "note": "exact arithmetic and binary64"
  },
  {
   "property": "C06",
   "status": "proved",
   "theorems": [
    "GoSvg.C06_path_semantics",
    "GoSvg.C06_path_semantics_exact"
   ],
   "note": "any arithmetic and, with exact numbers, real arithmetic"
  },
  {
   "property": "C07",
   "status": "proved",
   "theorems": [
    "GoSvg.C07_relative_is_shifted"
   ],
   "note": "any arithmetic, any prefix and suffix, any layout"
  },
  {
   "property": "C08",
   "status": "partial",
   "theorems": [
    "GoSvg.C08_repeated_sets_partial",
    "GoSvg.C08_arcs_false"
   ],
   "note": "all commands but arcs; the claim fails for arcs"
  },
  {
   "property": "C09",
   "status": "proved",
   "theorems": [
    "GoSvg.C09_parameter_count"
   ],
   "note": "any arithmetic, every error mode"
  },
  {
   "property": "C10",
   "status": "partial",
   "theorems": [
    "GoSvg.C10_close_partial",
    "GoSvg.C10_second_close_false"
   ],
   "note": "closes of a subpath started by a move; a subpath that continues after a close is never closed again"
  },
  {
   "property": "C11",
   "status": "partial",
   "theorems": [
    "GoSvg.C11_unknown_strict",
    "GoSvg.C11_unknown_skipped_partial",
    "GoSvg.C11_unreadable_numbers_false"
   ],
   "note": "the claim fails when what follows the letter cannot be read as numbers"
  },
  {
   "property": "C12",
   "status": "proved",
   "theorems": [
    "GoSvg.C12_path_independent"
   ],
   "note": "any arithmetic"
  },
  {
   "property": "C13",
   "status": "proved",
   "theorems": [
    "GoSvg.C13_centre",
    "GoSvg.C13_two_centres"
   ],
   "note": "exact arithmetic"
  },
  {
   "property": "C14",
   "status": "partial",
   "theorems": [
    "GoSvg.C14_arc_partial",
    "GoSvg.C14_end_point"
   ],
   "note": "exact arithmetic; the first set of an arc command outside a use with an offset"
  },
  {
   "property": "C15",
   "status": "proved",
   "theorems": [
    "GoSvg.C15_ellipse",
    "GoSvg.C15_zero_radius"
   ],
   "note": "exact arithmetic"
  },
  {
   "property": "C16",
   "status": "partial",
   "theorems": [
    "GoSvg.C16_corners",
    "GoSvg.C16_empty",
    "GoSvg.C16_missing_radius",
    "GoSvg.C16_rounded_partial",
    "GoSvg.C16_rounded_false"
   ],
   "note": "exact arithmetic; rounded rectangles with equal radii; the claim fails for two different radii"
  },
  {
   "property": "C17",
   "status": "partial",
   "theorems": [
    "GoSvg.C17_line",
    "GoSvg.C17_poly_partial",
    "GoSvg.C17_odd",
    "GoSvg.C17_two_points_not_drawn",
    "GoSvg.C17_no_points_drawn",
    "GoSvg.C17_two_points_false",
    "GoSvg.C17_no_points_false"
   ],
   "note": "three points or more; the claim fails for two points and for a missing points attribute"
  },
  {
   "property": "C18",
   "status": "partial",
   "theorems": [
    "GoSvg.C18_mult_is_composition_partial",
    "GoSvg.C18_mult_is_composition_false",
    "GoSvg.C18_mult_assoc_false"
   ],
   "note": "Matrix multiplication is not composition in the code; the theorem gives the exact condition under which it is, and witnesses show that composition and associativity fail."
  },
  {
   "property": "C19",
   "status": "proved",
   "theorems": [
    "GoSvg.C19_invert_left",
    "GoSvg.C19_invert_right",
    "GoSvg.C19_singular_not_invertible"
   ],
   "note": "exact arithmetic"
  },
  {
   "property": "C20",
   "status": "proved",
   "theorems": [
    "GoSvg.C20_identity_mult",
    "GoSvg.C20_identity_map",
    "GoSvg.C20_neutral_steps",
    "GoSvg.C20_identity_fixed",
    "GoSvg.C20_float64",
    "GoSvg.C20_float64_fixed",
    "GoSvg.C20_float64_neutral"
   ],
   "note": "exact arithmetic; Identity also in binary64"
  },
  {
   "property": "C21",
   "status": "partial",
   "theorems": [
    "GoSvg.C21_transform_list_partial",
    "GoSvg.C21_accepted",
    "GoSvg.C21_single_translate_false",
    "GoSvg.C21_rotate_about_false",
    "GoSvg.C21_order_false",
    "GoSvg.C21_comma_false"
   ],
   "note": "exact arithmetic; lists the code reads right, with an exact condition; witnesses for translate(x), rotate about a point, order of functions and commas between functions"
  },
  {
   "property": "C22",
   "status": "partial",
   "theorems": [
    "GoSvg.C22_nested_partial",
    "GoSvg.C22_inherited",
    "GoSvg.C22_nested_false"
   ],
   "note": "exact arithmetic; exact condition on the parent's matrix; witness otherwise"
  },
  {
   "property": "C23",
   "status": "proved",
   "theorems": [
    "GoSvg.C23_tFixed_truncates",
    "GoSvg.C23_all_operations",
    "GoSvg.C23_float64"
   ],
   "note": "exact arithmetic, and binary64 with a bound on the error"
  },
  {
   "property": "C24",
   "status": "partial",
   "theorems": [
    "GoSvg.C24_only_ancestors_partial",
    "GoSvg.C24_masks_partial",
    "GoSvg.C24_example",
    "GoSvg.C24_svg_false",
    "GoSvg.C24_use_false"
   ],
   "note": "any arithmetic; balanced documents with one svg element: two documents sharing only the element and its ancestors give it the same style; a second svg and incomplete definitions do influence it"
  },
  {
   "property": "C25",
   "status": "partial",
   "theorems": [
    "GoSvg.C25_opacity_partial",
    "GoSvg.C25_product_partial",
    "GoSvg.C25_float64_partial",
    "GoSvg.C25_use_false",
    "GoSvg.C25_percent_false"
   ],
   "note": "any arithmetic (fold of products), exact arithmetic (product) and binary64 (error at most 2^-53 for each factor); balanced documents; use of an incomplete definition drops a group's opacity, and percentages are read as numbers"
  },
  {
   "property": "C26",
   "status": "partial",
   "theorems": [
    "GoSvg.C26_style_equals_attributes",
    "GoSvg.C26_later_decides_partial",
    "GoSvg.C26_later_false",
    "GoSvg.C26_mask_false",
    "GoSvg.C26_dash_false"
   ],
   "note": "any arithmetic; the later of two declarations decides for the replacing properties; opacities multiply, masks accumulate, dash array none is ignored"
  },
  {
   "property": "C27",
   "status": "proved",
   "theorems": [
    "GoSvg.C27_keyword",
    "GoSvg.C27_other"
   ],
   "note": "any arithmetic, every error mode"
  },
  {
   "property": "C28",
   "status": "partial",
   "theorems": [
    "GoSvg.C28_no_stack_panic",
    "GoSvg.C28_restored",
    "GoSvg.C28_no_stack_panic_use_partial",
    "GoSvg.C28_restored_use_partial",
    "GoSvg.C28_use_false"
   ],
   "note": "any arithmetic; all well-nested documents without use, and tidy documents with use; a definition that is not complete unbalances the stack"
  },
  {
   "property": "C29",
   "status": "partial",
   "theorems": [
    "GoSvg.C29_prefix_partial",
    "GoSvg.C29_fourth_mask_false"
   ],
   "note": "any arithmetic, all cut points; operations, style and the first three masks of every path stay; a fourth mask may be overwritten by a later sibling"
  },
  {
   "property": "C30",
   "status": "proved",
   "theorems": [
    "GoSvg.C30_lenient_modes_agree",
    "GoSvg.C30_only_warn_logs"
   ],
   "note": "any arithmetic, every token stream"
  },
  {
   "property": "C31",
   "status": "proved",
   "theorems": [
    "GoSvg.C31_strict_success"
   ],
   "note": "any arithmetic, every token stream"
  },
  {
   "property": "C32",
   "status": "partial",
   "theorems": [
    "GoSvg.C32_strict_partial",
    "GoSvg.C32_lenient_partial",
    "GoSvg.C32_like_group_partial",
    "GoSvg.C32_after_use_false"
   ],
   "note": "any arithmetic; unknown elements outside defs of tidy documents"
  },
  {
   "property": "C33",
   "status": "proved",
   "theorems": [
    "GoSvg.C33_no_element",
    "GoSvg.C33_success_consumes_all",
    "GoSvg.C33_stream_error",
    "GoSvg.C33_element_error_stops"
   ],
   "note": "any arithmetic, every token stream"
  },
  {
   "property": "C34",
   "status": "partial",
   "theorems": [
    "GoSvg.C34_panic_sites",
    "GoSvg.C34_only_colors_partial",
    "GoSvg.C34_no_panic_partial",
    "GoSvg.C34_terminates_partial",
    "GoSvg.C34_terminates_real_partial",
    "GoSvg.C34_color_false",
    "GoSvg.C28_use_false"
   ],
   "note": "every possible panic site is named for all token streams; tidy documents panic on malformed colours only; witnesses for the panics"
  },
  {
   "property": "C35",
   "status": "partial",
   "theorems": [
    "GoSvg.C35_six",
    "GoSvg.C35_round_trip",
    "GoSvg.C35_three",
    "GoSvg.C35_not_hex",
    "GoSvg.C35_not_hex_three",
    "GoSvg.C35_other_lengths",
    "GoSvg.C35_short",
    "GoSvg.C35_lengths_false"
   ],
   "note": "three and six digits and what is rejected; the claim fails for other lengths"
  },
  {
   "property": "C36",
   "status": "partial",
   "theorems": [
    "GoSvg.C36_value",
    "GoSvg.C36_rgb_partial",
    "GoSvg.C36_only_three",
    "GoSvg.C36_error_partial",
    "GoSvg.C36_clamp_false",
    "GoSvg.C36_empty_false"
   ],
   "note": "components in range; the claim fails for components out of range (no clamping) and for empty components (panic)"
  },
  {
   "property": "C37",
   "status": "partial",
   "theorems": [
    "GoSvg.C37_none",
    "GoSvg.C37_name",
    "GoSvg.C37_unresolved",
    "GoSvg.C37_other_partial",
    "GoSvg.C37_empty_false"
   ],
   "note": "the claim fails for an empty value"
  },
  {
   "property": "C38",
   "status": "partial",
   "theorems": [
    "GoSvg.C38_paint_partial",
    "GoSvg.C38_reference_partial",
    "GoSvg.C38_unresolved_partial",
    "GoSvg.C38_later",
    "GoSvg.C38_example",
    "GoSvg.C38_forward"
   ],
   "note": "any arithmetic; which gradient a reference takes, with which stops and colours, in balanced documents (not the matrix of a gradientTransform); that later tokens do not change paints, for all documents; a forward reference is black"
  },
  {
   "property": "C39",
   "status": "partial",
   "theorems": [
    "GoSvg.C39_complete",
    "GoSvg.C39_filled_partial",
    "GoSvg.C38_example"
   ],
   "note": "any arithmetic; direction and colours of every stop for all documents and outcomes; which colour is filled in, for balanced documents"
  },
  {
   "property": "C40",
   "status": "partial",
   "theorems": [
    "GoSvg.C40_direction_partial",
    "GoSvg.C40_document_partial",
    "GoSvg.C40_linear",
    "GoSvg.C40_radial",
    "GoSvg.C40_units_anywhere",
    "GoSvg.C40_example",
    "GoSvg.C38_example",
    "GoSvg.C40_fr_false"
   ],
   "note": "all attribute lists; defaults and percentages in exact arithmetic; from documents for balanced ones; C40_fr_false: the default of fr, which the claim leaves out, is not that of SVG"
  },
  {
   "property": "C41",
   "status": "partial",
   "theorems": [
    "GoSvg.C41_silent_partial",
    "GoSvg.C41_nested_defs_false",
    "GoSvg.C41_gradient_content_false"
   ],
   "note": "any arithmetic; defs outside defs, gradients holding stops only; nested defs and other gradient content are painted"
  },
  {
   "property": "C42",
   "status": "partial",
   "theorems": [
    "GoSvg.C42_terminates_partial",
    "GoSvg.C42_terminates_real_partial",
    "GoSvg.C42_circle_false",
    "GoSvg.C42_errors_partial",
    "GoSvg.C42_error_kind_partial"
   ],
   "note": "tidy documents whose definitions do not refer to themselves end, with one and the same result for every sufficient fuel; every circle of definitions is proved never to end; bad references stop with an error, nothing is drawn for them and nothing after them is read"
  },
  {
   "property": "C43",
   "status": "partial",
   "theorems": [
    "GoSvg.C43_no_use_partial",
    "GoSvg.C43_no_use_real_partial",
    "GoSvg.few_real",
    "GoSvg.size_holds",
    "GoSvg.C43_false",
    "GoSvg.C43_polynomial_false",
    "GoSvg.C43_points_left"
   ],
   "note": "linear bound for every document without use whose polylines and polygons have points (exact arithmetic, or any arithmetic with bounded arcs); false with use: for every k a document of size at most 80 (k+1)^2 gives 2^(k+1) operations, so no polynomial bound holds"
  },
  {
   "property": "C44",
   "status": "partial",
   "theorems": [
    "GoSvg.C44_shift_partial",
    "GoSvg.C44_shift_real_partial",
    "GoSvg.C44_gone",
    "GoSvg.shift_draws",
    "GoSvg.C44_arc_false",
    "GoSvg.C44_nested_false",
    "GoSvg.C44_path_false"
   ],
   "note": "definitions of groups, lines, polylines, polygons, arc-free paths (any arithmetic), circles, ellipses and plain rectangles (exact arithmetic) are drawn shifted; the offset is gone afterwards; false for arcs in paths, nested uses and a path after another shape"
  },
  {
   "property": "C45",
   "status": "partial",
   "theorems": [
    "GoSvg.C45_collected_partial",
    "GoSvg.C45_registered_partial",
    "GoSvg.C45_only_mask_end",
    "GoSvg.C45_example",
    "GoSvg.C45_nested_mask_false",
    "GoSvg.C45_defs_false",
    "GoSvg.C45_use_false"
   ],
   "note": "for tidy documents: the paths of a mask are those its content gives in a group, in order, and none of them is among the document's; every registered mask is of that kind; false for masks within masks, defs within masks and use of masks"
  },
  {
   "property": "C46",
   "status": "partial",
   "theorems": [
    "GoSvg.C46_texts_partial",
    "GoSvg.C46_no_text_panic",
    "GoSvg.C46_nested_title_false",
    "GoSvg.C46_use_false"
   ],
   "note": "any arithmetic; tidy documents; a title inside a title loses text; a use of a title adds one"
  },
  {
   "property": "C47",
   "status": "proved",
   "theorems": [
    "GoSvg.C47_one_path_per_tag",
    "GoSvg.C47_document_order"
   ],
   "note": "any arithmetic, every token stream"
  },
  {
   "property": "C48",
   "status": "partial",
   "theorems": [
    "GoSvg.C48_last_opacity",
    "GoSvg.C48_last_target",
    "GoSvg.C48_default_opacity",
    "GoSvg.C48_no_target_false"
   ],
   "note": "any arithmetic; without a Target everything is drawn at the origin"
  },
  {
   "property": "C49",
   "status": "partial",
   "theorems": [
    "GoSvg.C49_target_partial",
    "GoSvg.C49_target_false",
    "GoSvg.C49_float64_partial"
   ],
   "note": "exact arithmetic; exact condition on the target and a witness; binary64 with a bound on the error of the matrix"
  },
  {
   "property": "C50",
   "status": "partial",
   "theorems": [
    "GoSvg.C50_order_partial",
    "GoSvg.C50_target_partial",
    "GoSvg.C50_order_false"
   ],
   "note": "exact arithmetic; exact condition on target and transform and a witness"
  },
  {
   "property": "C51",
   "status": "partial",
   "theorems": [
    "GoSvg.C51_rasterx",
    "GoSvg.C51_draw2d_partial",
    "GoSvg.C51_gg_partial",
    "GoSvg.C51_draw2d_false"
   ],
   "note": "any arithmetic; full for rasterx; draw2d and gg add a close before each move"
  },
  {
   "property": "C52",
   "status": "proved",
   "theorems": [
    "GoSvg.C52_fill_and_stroke"
   ],
   "note": "any arithmetic; all three renderers; for gg whenever drawing ends normally"
  },
  {
   "property": "C53",
   "status": "partial",
   "theorems": [
    "GoSvg.C53_alpha_partial",
    "GoSvg.C53_monotone",
    "GoSvg.C53_full",
    "GoSvg.C53_float64_partial",
    "GoSvg.C53_float64_monotone",
    "GoSvg.C53_false"
   ],
   "note": "exact arithmetic and binary64; opacities from 0 to 1; off by one from the rounded product, wraps around above 1"
  },
  {
   "property": "C54",
   "status": "partial",
   "theorems": [
    "GoSvg.C54_masks_partial",
    "GoSvg.C54_plain_masks_partial",
    "GoSvg.C54_self_false",
    "GoSvg.C54_document_false"
   ],
   "note": "masks that do not lead back to themselves; a self-referring mask never ends"
  },
  {
   "property": "C55",
   "status": "partial",
   "theorems": [
    "GoSvg.C55_uniform_partial",
    "GoSvg.C55_rotation_false"
   ],
   "note": "exact arithmetic; the claim fails for rotations"
  },
  {
   "property": "C56",
   "status": "partial",
   "theorems": [
    "GoSvg.C56_round_trip_partial",
    "GoSvg.C56_cubic_false",
    "GoSvg.C56_large_false"
   ],
   "note": "exact arithmetic; paths without cubics, coordinates below 2^24/64 px; the text of every path with a cubic is rejected; float32 loses large coordinates"
  },
  {
   "property": "C57",
   "status": "partial",
   "theorems": [
    "GoSvg.C57_rect",
    "GoSvg.C57_line",
    "GoSvg.C57_mask",
    "GoSvg.C57_circle_partial",
    "GoSvg.C57_circle_false"
   ],
   "note": "any arithmetic; the claim fails for a circle or ellipse that gives r together with rx or ry"
  },
  {
   "property": "C58",
   "status": "proved",
   "theorems": [
    "GoSvg.C58_view_box",
    "GoSvg.C58_four_numbers",
    "GoSvg.C58_document",
    "GoSvg.C58_float64",
    "GoSvg.C58_box"
   ],
   "note": "any arithmetic; C58_document is about whole documents; C58_float64 and C58_box: in binary64 every number of the view box is rounded once, so the view boxes asked for by C75, C80, C82 and C83 follow from the text"
  },
  {
   "property": "C59",
   "status": "proved",
   "theorems": [
    "GoSvg.C59_dash_array",
    "GoSvg.C59_none"
   ],
   "note": ""
  },
  {
   "property": "C60",
   "status": "proved",
   "theorems": [
    "GoSvg.C60_bounding_box",
    "GoSvg.C60_user_space"
   ],
   "note": "exact arithmetic for the bounding box"
  },
  {
   "property": "C61",
   "status": "partial",
   "theorems": [
    "GoSvg.C61_selector_iff",
    "GoSvg.C61_selector_error",
    "GoSvg.C61_gradient_url",
    "GoSvg.C61_gradient_url_other",
    "GoSvg.C61_none_false"
   ],
   "note": "the selectors themselves are read exactly; in a document none selects the mask without a name (C61_none_false)"
  },
  {
   "property": "C62",
   "status": "partial",
   "theorems": [
    "GoSvg.C62_draw2d",
    "GoSvg.C62_rasterx",
    "GoSvg.C62_gg_partial",
    "GoSvg.C62_gg_false"
   ],
   "note": "any arithmetic; full for draw2d and rasterx; gg fills with the stroke colour when there is a stroke (semantics of the backend calls in Spec/Drawing)"
  },
  {
   "property": "C63",
   "status": "partial",
   "theorems": [
    "GoSvg.C63_keywords_partial",
    "GoSvg.C63_paint_partial",
    "GoSvg.C63_lengths_partial",
    "GoSvg.C63_exact_partial",
    "GoSvg.C63_root_percent_false"
   ],
   "note": "balanced documents, for lengths with one svg; keywords and paints for any arithmetic, lengths exact in real arithmetic; percentages on the root element itself are read as 0 (C63_root_percent_false); a dash array none keeps the earlier one (C26_dash_false)"
  },
  {
   "property": "C64",
   "status": "partial",
   "theorems": [
    "GoSvg.C64_stops_partial",
    "GoSvg.C64_transform_partial",
    "GoSvg.C64_transform_false",
    "GoSvg.C64_opacity_percent_false"
   ],
   "note": "Stops in exact arithmetic, for balanced documents (as in C38). The matrix for transform lists that C21 covers, in elements without transforms: the matrix wrongly includes the transform of the elements around the gradient (C64_transform_false). Opacities in percent are read a hundred times too large (C64_opacity_percent_false)."
  },
  {
   "property": "C65",
   "status": "partial",
   "theorems": [
    "GoSvg.C65_draw2d",
    "GoSvg.C65_gg_path",
    "GoSvg.C65_gg_partial",
    "GoSvg.C65_rasterx_partial",
    "GoSvg.C65_rasterx_dash_false",
    "GoSvg.C65_gg_miter_false",
    "GoSvg.C65_dash_scale_false"
   ],
   "note": "Holds for draw2d. For gg whenever drawing ends without a panic, with bevels for miters (C65_gg_miter_false). For rasterx except for the dashes, on which no drawing depends (C65_rasterx_dash_false). The dashes are not scaled with the drawing while the line width is (C65_dash_scale_false). C65_example is a drawing with two strokes."
  },
  {
   "property": "C66",
   "status": "partial",
   "theorems": [
    "GoSvg.C66_draw2d_partial",
    "GoSvg.C66_gg_path",
    "GoSvg.C66_gg_partial",
    "GoSvg.C66_rasterx_partial",
    "GoSvg.C66_documents",
    "GoSvg.C66_gg_no_panic",
    "GoSvg.C66_draw2d_false",
    "GoSvg.C66_gg_false",
    "GoSvg.C66_gg_target_false",
    "GoSvg.C66_gg_radial_false",
    "GoSvg.C66_rasterx_target_false",
    "GoSvg.C66_rasterx_focal_false"
   ],
   "note": "rasterx: everything but the radius of the focal circle (C66_rasterx_focal_false) and the target for user space units (C66_rasterx_target_false). gg: points and stops of fills without a stroke; no drawing depends on units, bounds, matrix or spread (C66_gg_false) or moves gradients with the target (C66_gg_target_false), and radial gradients run the wrong way round (C66_gg_radial_false). draw2d: one colour (C66_draw2d_false). Drawing a document with gg never panics (C66_gg_no_panic). C66_example is a document with a gradient."
  },
  {
   "property": "C67",
   "status": "partial",
   "theorems": [
    "GoSvg.C67_gg_path",
    "GoSvg.C67_gg_partial",
    "GoSvg.C67_draw2d_false",
    "GoSvg.C67_rasterx_false",
    "GoSvg.C67_region_false",
    "GoSvg.C67_transform_false",
    "GoSvg.C67_nested_false"
   ],
   "note": "For gg: each fill and stroke is clipped by the content of the last mask of its path, drawn with the matrix of the masked path and full opacity (ClipFor), or not clipped if there is none. False in gg for the region and for transforms inside the mask (C67_region_false, C67_transform_false) and for the other masks of a path (C67_nested_false); draw2d and rasterx ignore masks (C67_draw2d_false, C67_rasterx_false). C67_example is a document with a masked and an unmasked path."
  },
  {
   "property": "C68",
   "status": "proved",
   "theorems": [
    "GoSvg.C68_grid_path",
    "GoSvg.C68_off_grid_false"
   ],
   "note": "binary64 (soft-float model), arcs excluded, offset of the parser zero; the witness shows the claim needs the grid"
  },
  {
   "property": "C69",
   "status": "partial",
   "theorems": [
    "GoSvg.C69_syntax_partial",
    "GoSvg.C69_finite_partial",
    "GoSvg.C69_hex_false",
    "GoSvg.C69_infinite_false",
    "GoSvg.C69_values_false"
   ],
   "note": "binary64; the exact language that is accepted; finite for decimal numbers without a unit; false for hexadecimal literals, underscores, Inf, NaN and for lengths that overflow by their unit"
  },
  {
   "property": "C70",
   "status": "partial",
   "theorems": [
    "GoSvg.C70_line",
    "GoSvg.C70_poly_partial",
    "GoSvg.C70_rect",
    "GoSvg.C70_units_false"
   ],
   "note": "binary64 (soft-float model), offset of the parser zero; a polyline of two points is not drawn at all (C17); C70_rect assumes sin 0 = 0, cos 0 = 1 and a finite degree constant of the library; the witness shows the claim needs the units named"
  },
  {
   "property": "C71",
   "status": "partial",
   "theorems": [
    "GoSvg.C71_initial_partial",
    "GoSvg.C71_stroke_false"
   ],
   "note": "any arithmetic, balanced documents; false for the stroke: its width is 2 and its joins are bevels"
  },
  {
   "property": "C72",
   "status": "proved",
   "theorems": [
    "GoSvg.C72_names",
    "GoSvg.C72_distinct",
    "GoSvg.C72_modes"
   ],
   "note": "the whole of the three types"
  },
  {
   "property": "C73",
   "status": "partial",
   "theorems": [
    "GoSvg.C73_line",
    "GoSvg.C73_rect",
    "GoSvg.C73_ellipse",
    "GoSvg.C73_poly_partial",
    "GoSvg.C73_path",
    "GoSvg.C73_nothing",
    "GoSvg.C73_float64_line",
    "GoSvg.C73_float64_rect",
    "GoSvg.C73_float64_poly_partial",
    "GoSvg.C73_float64_path"
   ],
   "note": "exact arithmetic, and binary64 on a grid; rectangles with square corners, polylines and polygons with three or more points, paths without arcs; false for polylines of two points and without points (C17) and for rounded rectangles with different radii (C16)"
  },
  {
   "property": "C74",
   "status": "proved",
   "theorems": [
    "GoSvg.C74_path_error",
    "GoSvg.C74_path_error_small"
   ],
   "note": "binary64; that the second term is needed is C68_off_grid_false"
  },
  {
   "property": "C75",
   "status": "partial",
   "theorems": [
    "GoSvg.C75_path",
    "GoSvg.C75_line",
    "GoSvg.C75_rect",
    "GoSvg.C75_poly_partial"
   ],
   "note": "Proved for paths of moves, lines, curves and closings, for lines, rectangles with square corners, and polylines and polygons of three or more points. Circles and ellipses are C80. Rounded corners are C83, elements under a transform C82. Arcs are C78 and C84. Not covered: targets away from the origin, for which the witness C49_target_false shows that the code does not put the picture where Target says. Shorter point lists are refused or drop out (C17 witnesses). ExactAtZero (sin 0 = 0, cos 0 = 1 in libm) is assumed for rectangles."
  },
  {
   "property": "C76",
   "status": "partial",
   "theorems": [
    "GoSvg.C76_length",
    "GoSvg.C76_line",
    "GoSvg.C76_rect",
    "GoSvg.C76_poly_partial"
   ],
   "note": "Lines and rectangles without rx and ry are covered, rectangles under the assumption that width and height are larger than the reading error. Point lists of three or more points only (C17 witnesses). Circles, ellipses and lengths against the diagonal are C80, rounded corners C83. C70_units_false is the witness that storage is not exact for such lengths."
  },
  {
   "property": "C77",
   "status": "partial",
   "theorems": [
    "GoSvg.C77_drawn_partial",
    "GoSvg.C77_line_partial",
    "GoSvg.C77_rect_partial",
    "GoSvg.C77_ellipse_partial",
    "GoSvg.C77_poly_partial",
    "GoSvg.C77_path_partial"
   ],
   "note": "Whole documents in exact arithmetic. Partial: only the transform lists and targets that the code composes in the right order (TransformedBy, InPlace); for the others the claim is false, see the witnesses of C18, C21, C22, C49 and C50. Rounded rectangles and arcs are not stated here; C77_drawn_partial applies to whatever an element contributes."
  },
  {
   "property": "C78",
   "status": "partial",
   "theorems": [
    "GoSvg.C78_path_partial",
    "GoSvg.C78_path_at_partial",
    "GoSvg.C78_document_partial",
    "GoSvg.C78_drawn_partial"
   ],
   "note": "Exact arithmetic; inside a use with an offset only paths without arcs (C78_path_at_partial; C44_arc_false). Partial: arcs with one parameter set (C08_arcs_false is the witness for several), radii of the same sign (C79_zero_radius_false, C79_one_negative_false are the witnesses for the others) and different end points (C79_coinciding)."
  },
  {
   "property": "C79",
   "status": "partial",
   "theorems": [
    "GoSvg.C79_coinciding",
    "GoSvg.C79_zero_radius_false",
    "GoSvg.C79_negative_partial",
    "GoSvg.C79_one_negative_false"
   ],
   "note": "Coinciding ends: proved in binary64 for all radii, rotations and flags (of the library functions only that NaN gives NaN, and int(NaN) as on amd64). Zero radius: false for every such arc, nothing is drawn and the current point stays. Two negative radii: as SVG says, in exact arithmetic. One negative radius: the arc of the other direction is drawn, for every such arc."
  },
  {
   "property": "C80",
   "status": "proved",
   "theorems": [
    "GoSvg.C80_radius",
    "GoSvg.C80_stored",
    "GoSvg.C80_drawn"
   ],
   "note": "Binary64. Assumed of the mathematics library: Spec.Accurate (errors of at most 2^-50 in sine and cosine up to 8 and tangent up to 1/2, the documented values at zero, constants rounded once); fine_accurate shows that the assumption can be met. Coordinates up to 2^23, radii larger than 2^-42 times the magnitude."
  },
  {
   "property": "C81",
   "status": "partial",
   "theorems": [
    "GoSvg.C81_transform",
    "GoSvg.C81_vector",
    "GoSvg.C81_skewX",
    "GoSvg.C81_skewY",
    "GoSvg.C81_rotate_partial",
    "GoSvg.C81_translate_partial",
    "GoSvg.C81_scale_partial",
    "GoSvg.C81_rotate_false",
    "GoSvg.C81_translate_false",
    "GoSvg.C81_scale_false"
   ],
   "note": "Exact arithmetic. Skews hold for all matrices; for rotations, translations and scalings the partial theorems say exactly for which matrices the claim holds (if and only if) and what the code does otherwise; witnesses show that it is false in general."
  },
  {
   "property": "C82",
   "status": "partial",
   "theorems": [
    "GoSvg.C82_stored_partial",
    "GoSvg.C82_drawn_partial",
    "GoSvg.C82_line_partial",
    "GoSvg.C82_rect_partial",
    "GoSvg.C82_ellipse_partial",
    "GoSvg.C82_poly_partial",
    "GoSvg.C82_path_partial"
   ],
   "note": "Binary64 with a mathematics library accurate to 2^-50. Partial: only for the transforms and targets for which the code composes in the right order (see C22, C81), rotations of at most a full turn, skews of at most 45 degrees; rectangles with rounded corners are C83; paths here are without arcs, circular arcs are C84."
  },
  {
   "property": "C83",
   "status": "partial",
   "theorems": [
    "GoSvg.C83_exact_partial",
    "GoSvg.C83_document_partial",
    "GoSvg.F64.C83_stored_partial",
    "GoSvg.C83_drawn_partial"
   ],
   "note": "In exact arithmetic (also for whole documents) and in binary64 with a mathematics library accurate to 2^-50 and the documented special cases of the arc tangent. Partial: equal radii (one of the two given, or both by the same text); in binary64 the radius must stay below half of both sides. With different radii the claim is false, see C16_rounded_false."
  },
  {
   "property": "C84",
   "status": "partial",
   "theorems": [
    "GoSvg.C84_path_partial",
    "GoSvg.C84_document_partial",
    "GoSvg.C84_drawn_partial"
   ],
   "note": "In binary64 with a mathematics library accurate to 2^-50 whose arc tangent is the angle of a point up to 2^-50. Partial: arcs of circles with positive radii, without rotation, whose ends are at least 1/64 of the bound on the numbers apart. In exact arithmetic all ellipses are covered by C78."
  },
  {
   "property": "C85",
   "status": "partial",
   "theorems": [
    "GoSvg.C85_tree_partial",
    "GoSvg.C85_drawn_partial"
   ],
   "note": "In exact arithmetic. Success is a conclusion, not a hypothesis. Partial: at most three masks on a shape (C29_fourth_mask_false), no masks in masks (C45_nested_mask_false) or in definitions, mask regions with the code's default 0 (SVG: -10% and 120%); a `use` stands below its definition, which is one shape, in groups or not, whose declarations change nothing of the look around it (C86_style_false, C86_parts_false), without arcs if the `use` has an offset (C44_arc_false); references to gradients stand below them, gradients do not refer to each other, and their stops have colours; transforms that the code composes in the right order (C21, C22), no percentages on the root, `stroke-dasharray=\"none\"` only where no dash array is inherited; polylines and polygons of three or more points, rounded corners with equal radii, arcs as in C78. Initial values and the default of `fr` are those of the code (C64)."
  },
  {
   "property": "C86",
   "status": "partial",
   "theorems": [
    "GoSvg.C86_inline_partial",
    "GoSvg.C86_style_false",
    "GoSvg.C86_parts_false"
   ],
   "note": "Any arithmetic, all outcomes (drawing, error, messages, panic). Partial: the definition is one shape without a style of its own and the use has no x and y; with a style of its own the claim is false (the code stores the path after it has taken the style of the definition off the stack, so that all used shapes get the style of the use element), and with several shapes it is false (they become one path). The offset is C44."
  },
  {
   "property": "C87",
   "status": "partial",
   "theorems": [
    "GoSvg.C87_rasterx",
    "GoSvg.C87_draw2d_last",
    "GoSvg.C87_draw2d_partial",
    "GoSvg.C87_gg_closing",
    "GoSvg.C87_gg_partial",
    "GoSvg.C87_draw2d_false",
    "GoSvg.C87_gg_unpainted_false",
    "GoSvg.C87_gg_open_false"
   ],
   "note": "Any arithmetic. Full for rasterx. False for draw2d with several subpaths (each move begins a new path, so only the last subpath is painted) and for gg (an unpainted path stays and is covered with the next; an open subpath that another follows is stroked closed); the two partial theorems are for the remaining drawings. The meaning of the canvas calls (which keep and which clear the current path) is trusted."
  },
  {
   "property": "C88",
   "status": "partial",
   "theorems": [
    "GoSvg.C88_rasterx_partial",
    "GoSvg.C88_draw2d_partial",
    "GoSvg.C88_gg_partial"
   ],
   "note": "In exact arithmetic, end to end: from the tokens of the document to the paintings. Partial as C85 (the documents that the code reads right) and for targets that the code composes in the right order; widths are scaled by the mean of the two scales (C55). draw2d: no gradients (C66_draw2d_false), one subpath per figure (C87_draw2d_false). gg: no gradients, every figure has either a fill or a stroke (C62_gg_false, C87_gg_unpainted_false), subpaths that others follow are closed (C87_gg_open_false). The masks themselves are C54 and C85, the placing of gradients is C66."
  },
  {
   "property": "C89",
   "status": "partial",
   "theorems": [
    "GoSvg.C89_draw2d_partial",
    "GoSvg.C89_gg_partial",
    "GoSvg.C89_rasterx_partial"
   ],
   "note": "In exact arithmetic, from the tokens of the document to the settings in effect at each stroke. Partial as C85. The code itself loses some: dashes are not scaled (C65_dash_scale_false), rasterx has no dashes (C65_rasterx_dash_false), gg no miter joins (C65_gg_miter_false) and none of the backends but rasterx has lead caps, gaps and miter limits."
  },
  {
   "property": "C90",
   "status": "partial",
   "theorems": [
    "GoSvg.C90_gg_partial"
   ],
   "note": "In exact arithmetic, from the tokens of the document to the clip in effect at each painting; that gg ends without a panic is a conclusion. Partial: as C88_gg_partial, also for what is in the masks; at most one mask on a figure (C67_nested_false); no transforms and no masks in masks (C67_transform_false, C45_nested_mask_false); the region of a mask has no effect (C67_region_false); draw2d and rasterx have no masks (C67_draw2d_false, C67_rasterx_false)."
  },
  {
   "property": "C91",
   "status": "proved",
   "theorems": [
    "GoSvg.C91_unknown_attributes",
    "GoSvg.C91_text"
   ],
   "note": "Any number type, any document. The attributes that mean something are listed in Spec/Bare.lean, separately from the model. The drawing is compared as a caller sees it, without the table of definitions, which is not exported."
  },
  {
   "property": "C92",
   "status": "partial",
   "theorems": [
    "GoSvg.C92_plain_group_partial",
    "GoSvg.grouped_styled_false"
   ],
   "note": "Any number type. Missing: groups inside defs, where the table of definitions differs, and documents that are not tidy. grouped_styled_false shows that the restriction to groups without style attributes is needed."
  },
  {
   "property": "C93",
   "status": "partial",
   "theorems": [
    "GoSvg.C93_collapse_partial",
    "GoSvg.collapse_transform_false"
   ],
   "note": "Any number type. Missing: groups inside defs, elements other than shapes and groups, documents that are not tidy. collapse_transform_false shows that the restriction on transforms is needed."
  },
  {
   "property": "C94",
   "status": "partial",
   "theorems": [
    "GoSvg.C94_text",
    "GoSvg.C94_title_partial",
    "GoSvg.C94_defs_false"
   ],
   "note": "Any number type. C94_text: documents with the same tags, no hypotheses. C94_title_partial: one title or description outside defs in a tidy document. For titles in defs the claim is false: C94_defs_false, a title with an identifier ends the group it is in."
  },
  {
   "property": "C95",
   "status": "proved",
   "theorems": [
    "GoSvg.C95_file",
    "GoSvg.C95_no_use"
   ],
   "note": "Any number type. For contents on which parsing never ends (C42_circle_false) the call has no end. C95_no_use: with files without use the call ends and the file is closed."
  },
  {
   "property": "C96",
   "status": "proved",
   "theorems": [
    "GoSvg.C96_size",
    "GoSvg.C96_strings",
    "GoSvg.C96_auto_false",
    "GoSvg.C96_nested_false"
   ],
   "note": "Any number type. The root attributes are distinct and equal but for width and height, of which each may be missing. The values have to be lengths: C96_auto_false, width=\"auto\" is an error although the width is not used. C96_strings: the two strings, for documents with one svg element that are parsed without an error. With an inner svg element the drawing gets the width, height and view box of the inner one (C96_nested_false)."
  },
  {
   "property": "C97",
   "status": "partial",
   "theorems": [
    "GoSvg.C97_shapes_partial",
    "GoSvg.C97_insert_partial",
    "GoSvg.C97_points_false"
   ],
   "note": "Any number type. Missing: shapes with a mask declaration, whose names stay in the backing arrays of the drawing. Polylines and polygons behind the shapes need a points attribute, and those in front of them, too, if there is a use behind: C97_points_false, one without is drawn with the numbers the shape before it has left."
  },
  {
   "property": "C98",
   "status": "partial",
   "theorems": [
    "GoSvg.C98_order_partial"
   ],
   "note": "Any number type. Missing: shapes with a mask declaration. Polylines and polygons need a points attribute (C97_points_false)."
  }
 ]
}