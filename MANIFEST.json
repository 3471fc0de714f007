{
 "claims": [
  {
   "property": "C01",
   "status": "proved",
   "theorems": [
    "Verif.C01_linear_tensor_linear"
   ],
   "note": ""
  },
  {
   "property": "C02",
   "status": "proved",
   "theorems": [
    "Verif.C02_tensor_linear_tensor"
   ],
   "note": ""
  },
  {
   "property": "C03",
   "status": "proved",
   "theorems": [
    "Verif.C03_row_major"
   ],
   "note": ""
  },
  {
   "property": "C04",
   "status": "proved",
   "theorems": [
    "Verif.C04_write_frame"
   ],
   "note": ""
  },
  {
   "property": "C05",
   "status": "proved",
   "theorems": [
    "Verif.C05_reshape",
    "Verif.C05_every",
    "Verif.C05_limits"
   ],
   "note": ""
  },
  {
   "property": "C06",
   "status": "proved",
   "theorems": [
    "Verif.C06_shape_invariant",
    "Verif.C06_extents"
   ],
   "note": ""
  },
  {
   "property": "C07",
   "status": "partial",
   "theorems": [
    "Verif.C07_memory_safe_partial",
    "Verif.C07_products_fit_partial",
    "Verif.C07_empty_dims_violated",
    "Verif.C07_overflow_violated",
    "Verif.C07_positive_extents_iff"
   ],
   "note": "True part proved for every usable shape; the code has undefined behaviour for an empty extents list and for int overflow (witness theorems), so the full claim is false of the code."
  },
  {
   "property": "C08",
   "status": "proved",
   "theorems": [
    "Verif.C08_contents_history"
   ],
   "note": ""
  },
  {
   "property": "C09",
   "status": "proved",
   "theorems": [
    "Verif.C09_out_of_range_rejected"
   ],
   "note": ""
  },
  {
   "property": "C10",
   "status": "partial",
   "theorems": [
    "Verif.C10_accepted_coordinate_partial",
    "Verif.C10_at_max_1d_violated",
    "Verif.C10_at_max_2d_alias_violated",
    "Verif.C10_at_max_2d_violated"
   ],
   "note": "False of the code at the upper limit, which the range check accepts: out of bounds in one dimension, for every Bin (C10_at_max_1d_violated), another bin, or out of bounds, in two, for every Bin (C10_at_max_2d_violated). Proved: for every coordinate below the upper limits."
  },
  {
   "property": "C11",
   "status": "proved",
   "theorems": [
    "Verif.C11_add_range_box",
    "Verif.C11_every_bin_has_a_coordinate"
   ],
   "note": ""
  },
  {
   "property": "C12",
   "status": "proved",
   "theorems": [
    "Verif.C12_add_once_nodup",
    "Verif.C12_add_once_idempotent"
   ],
   "note": ""
  },
  {
   "property": "C13",
   "status": "proved",
   "theorems": [
    "Verif.C13_max_size"
   ],
   "note": ""
  },
  {
   "property": "C14",
   "status": "proved",
   "theorems": [
    "Verif.C14_nodal_quad",
    "Verif.C14_nodal_hex"
   ],
   "note": ""
  },
  {
   "property": "C15",
   "status": "proved",
   "theorems": [
    "Verif.C15_partition_of_unity_quad",
    "Verif.C15_partition_of_unity_hex"
   ],
   "note": ""
  },
  {
   "property": "C16",
   "status": "partial",
   "theorems": [
    "Verif.C16_hex_hess_factor_violated",
    "Verif.C16_quad_derivatives",
    "Verif.C16_hex_derivatives_partial",
    "Verif.C16_hex_hess_violated"
   ],
   "note": "Quad: proved. Hexahedron: gradient proved; the mixed second derivatives returned drop the factor of the third direction, so that part is false of the code: C16_hex_hess_factor_violated gives the right number for every cell and point."
  },
  {
   "property": "C17",
   "status": "proved",
   "theorems": [
    "Verif.C17_bounds_quad",
    "Verif.C17_bounds_hex"
   ],
   "note": ""
  },
  {
   "property": "C18",
   "status": "proved",
   "theorems": [
    "Verif.C18_quad_range"
   ],
   "note": ""
  },
  {
   "property": "C19",
   "status": "partial",
   "theorems": [
    "Verif.C19_hex_range_partial",
    "Verif.C19_hex_range_violated"
   ],
   "note": "False of the code: is_in_range of a hexahedron ignores the third coordinate (witness theorem). What the tests do cover is proved."
  },
  {
   "property": "C20",
   "status": "proved",
   "theorems": [
    "Verif.C20_bounding_box"
   ],
   "note": ""
  },
  {
   "property": "C21",
   "status": "partial",
   "theorems": [
    "Verif.C21_quad_refresh",
    "Verif.C21_hex_refresh_partial",
    "Verif.C21_hex_violated"
   ],
   "note": "Quad: proved. Hexahedron: eval_grad/eval_hess skip the components of the third direction (witness theorem)."
  },
  {
   "property": "C22",
   "status": "proved",
   "theorems": [
    "Verif.C22_build_2d",
    "Verif.C22_load_2d"
   ],
   "note": ""
  },
  {
   "property": "C23",
   "status": "proved",
   "theorems": [
    "Verif.C23_bilinear"
   ],
   "note": ""
  },
  {
   "property": "C24",
   "status": "proved",
   "theorems": [
    "Verif.C24_nodal"
   ],
   "note": ""
  },
  {
   "property": "C25",
   "status": "proved",
   "theorems": [
    "Verif.C25_reproduces_bilinear"
   ],
   "note": ""
  },
  {
   "property": "C26",
   "status": "proved",
   "theorems": [
    "Verif.C26_bounds"
   ],
   "note": ""
  },
  {
   "property": "C27",
   "status": "proved",
   "theorems": [
    "Verif.C27_single_valued",
    "Verif.C27_cell_order"
   ],
   "note": ""
  },
  {
   "property": "C28",
   "status": "partial",
   "theorems": [
    "Verif.C28_trilinear_partial",
    "Verif.C28_one_layer_partial",
    "Verif.C28_3d_violated"
   ],
   "note": "False of the code as stated (C28_3d_violated). Proved: correct when no other cell over or under the point comes within one bin margin of it, and always for one layer of cells."
  },
  {
   "property": "C29",
   "status": "partial",
   "theorems": [
    "Verif.C29_fresh_zero_partial",
    "Verif.C29_fresh_zero_3d_partial",
    "Verif.C29_stale_violated",
    "Verif.C29_repeats_2d_violated",
    "Verif.C29_repeats_3d_violated"
   ],
   "note": "False of the code (C29_stale_violated; for every mesh, C29_repeats_2d/3d_violated: at such a point of the bin in which the field was last evaluated, every evaluation of any kind repeats the last number returned). Proved: value, gradient and Hessian are 0 as long as the field was never evaluated inside a cell (3D: over or under one)."
  },
  {
   "property": "C30",
   "status": "proved",
   "theorems": [
    "Verif.C30_throws_2d",
    "Verif.C30_throws_3d"
   ],
   "note": ""
  },
  {
   "property": "C31",
   "status": "proved",
   "theorems": [
    "Verif.C31_safe_2d",
    "Verif.C31_safe_3d",
    "Verif.C31_load_3d"
   ],
   "note": ""
  },
  {
   "property": "C32",
   "status": "proved",
   "theorems": [
    "Verif.C32_derivatives",
    "Verif.C32_field_derivative"
   ],
   "note": ""
  },
  {
   "property": "C33",
   "status": "proved",
   "theorems": [
    "Verif.C33_getters_2d",
    "Verif.C33_getters_3d"
   ],
   "note": ""
  },
  {
   "property": "C34",
   "status": "proved",
   "theorems": [
    "Verif.C34_min_max"
   ],
   "note": ""
  },
  {
   "property": "C35",
   "status": "proved",
   "theorems": [
    "Verif.C35_read_into",
    "Verif.C35_read_is_load",
    "Verif.C35_read_2d",
    "Verif.C35_read_3d"
   ],
   "note": ""
  },
  {
   "property": "C36",
   "status": "partial",
   "theorems": [
    "Verif.C36_missing_file_violated",
    "Verif.C36_bad_number_violated",
    "Verif.C36_terminates_partial"
   ],
   "note": "False of the code: a missing file and a malformed number make read_vtk loop for ever (witness theorems, for every number of passes). Proved: every run that does not end got there through a stream that failed before the end of the file."
  },
  {
   "property": "C37",
   "status": "proved",
   "theorems": [
    "Verif.C37_find"
   ],
   "note": ""
  },
  {
   "property": "C38",
   "status": "proved",
   "theorems": [
    "Verif.C38_handles_are_values",
    "Verif.C38_independent"
   ],
   "note": ""
  },
  {
   "property": "C39",
   "status": "proved",
   "theorems": [
    "Verif.C39_no_memory_error",
    "Verif.C39_set_null_exits",
    "Verif.C39_no_leak",
    "Verif.C39_all_freed"
   ],
   "note": ""
  },
  {
   "property": "C40",
   "status": "partial",
   "theorems": [
    "Verif.C40_self_assign_violated",
    "Verif.C40_empty_assign_violated",
    "Verif.C40_assign_partial"
   ],
   "note": "False of the code for every handle: self-assignment uses a freed object (C40_self_assign_violated), assignment from an empty handle dereferences NULL (C40_empty_assign_violated). Proved: assignment between handles that hold functions."
  },
  {
   "property": "C41",
   "status": "proved",
   "theorems": [
    "Verif.C41_getter",
    "Verif.C41_uninitialised"
   ],
   "note": ""
  },
  {
   "property": "C42",
   "status": "proved",
   "theorems": [
    "Verif.C42_accepts_iff",
    "Verif.C42_components",
    "Verif.C42_default"
   ],
   "note": ""
  },
  {
   "property": "C43",
   "status": "proved",
   "theorems": [
    "Verif.C43_getters"
   ],
   "note": ""
  },
  {
   "property": "C44",
   "status": "proved",
   "theorems": [
    "Verif.C44_undefined_throws",
    "Verif.C44_plain",
    "Verif.C44_simple_undefined",
    "Verif.C44_through_handle",
    "Verif.C44_piece_without_text",
    "Verif.C44_condition_without_text"
   ],
   "note": ""
  },
  {
   "property": "C45",
   "status": "proved",
   "theorems": [
    "Verif.C45_eval_all",
    "Verif.C45_eval_term",
    "Verif.C45_undefined"
   ],
   "note": ""
  },
  {
   "property": "C46",
   "status": "proved",
   "theorems": [
    "Verif.C46_value",
    "Verif.C46_coefficients_kept"
   ],
   "note": ""
  },
  {
   "property": "C47",
   "status": "proved",
   "theorems": [
    "Verif.C47_gradient",
    "Verif.C47_is_derivative"
   ],
   "note": ""
  },
  {
   "property": "C48",
   "status": "proved",
   "theorems": [
    "Verif.C48_hessian",
    "Verif.C48_is_derivative"
   ],
   "note": ""
  },
  {
   "property": "C49",
   "status": "partial",
   "theorems": [
    "Verif.C49_single_shot_partial",
    "Verif.C49_stale_violated",
    "Verif.C49_out_of_bounds_violated",
    "Verif.C49_grad_exact_partial",
    "Verif.C49_hess_exact_partial"
   ],
   "note": "False of the code (witness theorems: stale values, out-of-bounds term index). Proved: what is returned in every case after an evaluation at y and any single-shot calls (C49_grad_exact_partial, C49_hess_exact_partial): the derivative at the point with the differentiated coordinates of x and the other coordinates of y, or undefined behaviour; so it is right where the series was just evaluated at the same point and every other coordinate, truncated, is a term index (C49_single_shot_partial)."
  },
  {
   "property": "C50",
   "status": "partial",
   "theorems": [
    "Verif.C50_through_PFunction_violated",
    "Verif.C50_value_partial",
    "Verif.C50_eval_derivatives_partial"
   ],
   "note": "False of the code for every series and argument (C50_through_PFunction_violated). Proved: the value is available through a PFunction."
  },
  {
   "property": "C51",
   "status": "proved",
   "theorems": [
    "Verif.C51_products",
    "Verif.C51_product_getters",
    "Verif.C51_single",
    "Verif.C51_eval_one",
    "Verif.C51_print"
   ],
   "note": ""
  },
  {
   "property": "C52",
   "status": "proved",
   "theorems": [
    "Verif.C52_set",
    "Verif.C52_clear"
   ],
   "note": ""
  },
  {
   "property": "C53",
   "status": "proved",
   "theorems": [
    "Verif.C53_round_trip",
    "Verif.C53_truncated"
   ],
   "note": ""
  },
  {
   "property": "C54",
   "status": "proved",
   "theorems": [
    "Verif.C54_linear"
   ],
   "note": ""
  },
  {
   "property": "C55",
   "status": "proved",
   "theorems": [
    "Verif.C55_first_piece",
    "Verif.C55_forwards"
   ],
   "note": ""
  },
  {
   "property": "C56",
   "status": "proved",
   "theorems": [
    "Verif.C56_empty_condition",
    "Verif.C56_outside",
    "Verif.C56_inside",
    "Verif.C56_condition_throws"
   ],
   "note": ""
  },
  {
   "property": "C57",
   "status": "proved",
   "theorems": [
    "Verif.C57_getters",
    "Verif.C57_last"
   ],
   "note": ""
  },
  {
   "property": "C58",
   "status": "proved",
   "theorems": [
    "Verif.C58_simple_agrees",
    "Verif.C58_in_piece"
   ],
   "note": ""
  },
  {
   "property": "C59",
   "status": "partial",
   "theorems": [
    "Verif.C59_piece_as_function",
    "Verif.C59_list_as_function",
    "Verif.C59_piece_text",
    "Verif.C59_list_text",
    "Verif.C59_latex_piece_partial",
    "Verif.C59_latex_list_partial",
    "Verif.C59_latex_violated",
    "Verif.C59_latex_empty_violated"
   ],
   "note": "csrc and sym: proved. latex is false of the code with three or more conditions and for an empty list (witness theorems); proved for at most two conditions per piece."
  },
  {
   "property": "C60",
   "status": "proved",
   "theorems": [
    "Verif.C60_collect",
    "Verif.C60_tables",
    "Verif.C60_includes",
    "Verif.C60_distinct"
   ],
   "note": ""
  },
  {
   "property": "C61",
   "status": "proved",
   "theorems": [
    "Verif.C61_header_eq_source"
   ],
   "note": ""
  },
  {
   "property": "C62",
   "status": "proved",
   "theorems": [
    "Verif.C62_checkout",
    "Verif.C62_complete"
   ],
   "note": ""
  },
  {
   "property": "C63",
   "status": "proved",
   "theorems": [
    "Verif.C63_header_filter"
   ],
   "note": ""
  },
  {
   "property": "C64",
   "status": "proved",
   "theorems": [
    "Verif.C64_monomials",
    "Verif.C64_derivatives",
    "Verif.C64_basis_function"
   ],
   "note": ""
  },
  {
   "property": "C65",
   "status": "proved",
   "theorems": [
    "Verif.C65_chebyshev",
    "Verif.C65_cos",
    "Verif.C65_derivatives",
    "Verif.C65_basis_function"
   ],
   "note": ""
  },
  {
   "property": "C66",
   "status": "proved",
   "theorems": [
    "Verif.C66_quadratic",
    "Verif.C66_myfunc",
    "Verif.C66_quadratic_derivatives",
    "Verif.C66_myfunc_derivatives",
    "Verif.C66_copy_assign",
    "Verif.C66_names",
    "Verif.C66_part_names"
   ],
   "note": ""
  },
  {
   "property": "C67",
   "status": "proved",
   "theorems": [
    "Verif.C67_resize",
    "Verif.C67_copy_assign",
    "Verif.C67_is_basis_set"
   ],
   "note": ""
  },
  {
   "property": "C68",
   "status": "proved",
   "theorems": [
    "Verif.C68_resize_values"
   ],
   "note": ""
  },
  {
   "property": "C69",
   "status": "partial",
   "theorems": [
    "Verif.C69_resize_exception_safety_violated",
    "Verif.C69_failed_resize_keeps_values_partial"
   ],
   "note": "False of the code: witness theorem; the true part (values unchanged) is proved."
  },
  {
   "property": "C70",
   "status": "proved",
   "theorems": [
    "Verif.C70_reproduces_trilinear"
   ],
   "note": ""
  },
  {
   "property": "C71",
   "status": "proved",
   "theorems": [
    "Verif.C71_insertion_terminates"
   ],
   "note": ""
  },
  {
   "property": "C72",
   "status": "partial",
   "theorems": [
    "Verif.C72_clear_violated",
    "Verif.C72_assign_violated",
    "Verif.C72_copy_violated",
    "Verif.C72_copy_partial"
   ],
   "note": "False of the code (witness theorems for every function). Proved: copying a function with a value part."
  },
  {
   "property": "C73",
   "status": "partial",
   "theorems": [
    "Verif.C73_series_metadata_violated"
   ],
   "note": "False of the code for every series (C73_series_metadata_violated)."
  },
  {
   "property": "C74",
   "status": "partial",
   "theorems": [
    "Verif.C74_violated",
    "Verif.C74_piece_partial"
   ],
   "note": "False of the code for every list of pieces (C74_violated). Proved: a single piece reports what its expression reports."
  },
  {
   "property": "C75",
   "status": "partial",
   "theorems": [
    "Verif.C75_signatures_once_violated",
    "Verif.C75_signatures_once_partial"
   ],
   "note": "False of the code (C75_signatures_once_violated). Proved for type lists without repetitions and disjoint from the input types of the scanned classes."
  },
  {
   "property": "C76",
   "status": "partial",
   "theorems": [
    "Verif.C76_declaration_violated",
    "Verif.C76_declaration_partial",
    "Verif.C76_blanks_partial",
    "Verif.C76_sound"
   ],
   "note": "False of the code (C76_declaration_violated: blanks before , and >). Proved: recognised exactly, for lines without them (and with the output type free of commas, no other base class, no > after the declaration); everything recognised is there (C76_sound)."
  },
  {
   "property": "C77",
   "status": "proved",
   "theorems": [
    "Verif.C77_monomial_texts",
    "Verif.C77_chebyshev_texts",
    "Verif.C77_function_texts",
    "Verif.C77_piecewise_texts"
   ],
   "note": ""
  },
  {
   "property": "C78",
   "status": "proved",
   "theorems": [
    "Verif.C78_partition",
    "Verif.C78_values",
    "Verif.C78_names",
    "Verif.C78_piece_names",
    "Verif.C78_derivatives"
   ],
   "note": ""
  },
  {
   "property": "C79",
   "status": "partial",
   "theorems": [
    "Verif.C79_copies_partial",
    "Verif.C79_copy_violated",
    "Verif.C79_assign_violated"
   ],
   "note": "False of the code: a copy loses the stored value (C79_copy_violated), assignment has no defined result, leaks and double frees (C79_assign_violated). Proved: without assignment, every history behaves as values, a copy being a freshly constructed object."
  },
  {
   "property": "C80",
   "status": "proved",
   "theorems": [
    "Verif.C80_variables_are_values",
    "Verif.C80_no_leak",
    "Verif.C80_others_unaffected",
    "Verif.C80_shared_variable_dangles"
   ],
   "note": ""
  },
  {
   "property": "C81",
   "status": "proved",
   "theorems": [
    "Verif.C81_calc",
    "Verif.C81_get",
    "Verif.C81_size"
   ],
   "note": ""
  },
  {
   "property": "C82",
   "status": "partial",
   "theorems": [
    "Verif.C82_function_names_partial",
    "Verif.C82_other_names_partial",
    "Verif.C82_names_violated"
   ],
   "note": "False of the code (C82_names_violated: no buffer size suffices for every name). Proved: stored intact exactly when the buffer has room for it."
  },
  {
   "property": "C83",
   "status": "proved",
   "theorems": [
    "Verif.C83_set",
    "Verif.C83_values",
    "Verif.C83_coefficients",
    "Verif.C83_single_basis",
    "Verif.C83_tensor_basis"
   ],
   "note": ""
  },
  {
   "property": "C84",
   "status": "partial",
   "theorems": [
    "Verif.C84_series_basis_partial",
    "Verif.C84_basis_partial",
    "Verif.C84_function_partial",
    "Verif.C84_get_derivatives_violated",
    "Verif.C84_names_violated",
    "Verif.C84_simple_partial",
    "Verif.C84_series_partial",
    "Verif.C84_series_set_partial",
    "Verif.C84_series_methods_violated"
   ],
   "note": "False of the code (C84_get_derivatives_violated, C84_names_violated, C84_series_methods_violated). Proved for the other methods: functions, simple functions, series (values, derivatives, coefficients, shape), set, construction."
  },
  {
   "property": "C85",
   "status": "proved",
   "theorems": [
    "Verif.C85_same_text",
    "Verif.C85_python_reads",
    "Verif.C85_cpp_reads",
    "Verif.C85_truncated"
   ],
   "note": ""
  },
  {
   "property": "C86",
   "status": "partial",
   "theorems": [
    "Verif.C86_simple",
    "Verif.C86_checkout",
    "Verif.C86_basis",
    "Verif.C86_resize",
    "Verif.C86_max_size_partial",
    "Verif.C86_max_size_violated"
   ],
   "note": "False of the code for max_size (C86_max_size_violated: -1 for a class without a limit). Everything else is proved."
  },
  {
   "property": "C87",
   "status": "proved",
   "theorems": [
    "Verif.C87_variables_are_values",
    "Verif.C87_series_keep_their_basis_sets"
   ],
   "note": ""
  },
  {
   "property": "C88",
   "status": "partial",
   "theorems": [
    "Verif.C88_variables_partial",
    "Verif.C88_delete_body_violated",
    "Verif.C88_delete_view_partial"
   ],
   "note": "False of the code for deleting (C88_delete_body_violated: the destructor of Mesh deletes interpolators through a base class without virtual destructor; C88_delete_view_partial). Proved: in every history that obeys the rules every variable behaves as a value, nothing is lost or shared."
  },
  {
   "property": "C89",
   "status": "proved",
   "theorems": [
    "Verif.C89_fields_2d",
    "Verif.C89_fields_3d",
    "Verif.C89_bilinear_2d"
   ],
   "note": ""
  },
  {
   "property": "C90",
   "status": "partial",
   "theorems": [
    "Verif.C90_appends_partial",
    "Verif.C90_same_file_violated",
    "Verif.C90_same_file_3d_violated",
    "Verif.C90_old_field_violated",
    "Verif.C90_other_file_violated"
   ],
   "note": "False of the code: for every mesh, field and point, reading the same file twice doubles the field (C90_same_file_violated, 2D and 3D); concrete witnesses for another file and for earlier views. Proved: points and fields are appended unchanged and lookup by name keeps finding the earlier field."
  },
  {
   "property": "C91",
   "status": "proved",
   "theorems": [
    "Verif.C91_components",
    "Verif.C91_print"
   ],
   "note": ""
  },
  {
   "property": "C92",
   "status": "partial",
   "theorems": [
    "Verif.C92_fields_2d_partial",
    "Verif.C92_fields_3d_partial",
    "Verif.C92_methods_2d_violated",
    "Verif.C92_methods_3d_violated"
   ],
   "note": "False of the code for name, get_grad, get_hess and delete (undefined for every field object and body: C92_methods_*_violated). Proved: everything else, for every program that deletes nothing."
  },
  {
   "property": "C93",
   "status": "partial",
   "theorems": [
    "Verif.C93_contents_history_partial",
    "Verif.C93_out_of_range_rejected",
    "Verif.C93_box_found",
    "Verif.C93_interior_in_grid",
    "Verif.C93_below_max_violated"
   ],
   "note": "Every coordinate within the limits has a bin: false of the code (C93_below_max_violated, binary64). Proved: the rest, and that every coordinate more than 4 relative roundoffs below the upper limit has a bin. Overflow, underflow and NaN are outside the rounding model."
  },
  {
   "property": "C94",
   "status": "proved",
   "theorems": [
    "Verif.C94_loads",
    "Verif.C94_value_error",
    "Verif.C94_value_conforming",
    "Verif.C94_outside"
   ],
   "note": ""
  },
  {
   "property": "C95",
   "status": "proved",
   "theorems": [
    "Verif.C95_nodal_exact"
   ],
   "note": ""
  },
  {
   "property": "C96",
   "status": "partial",
   "theorems": [
    "Verif.C96_grad_error_partial",
    "Verif.C96_hess_error_partial",
    "Verif.C96_grad_violated",
    "Verif.C96_hess_violated"
   ],
   "note": "False of the code on cell edges (C96_grad_violated, C96_hess_violated, binary64). Proved: the bounds at every coordinate within the computed extent of its cell; pure second derivatives exactly 0 everywhere. Overflow, underflow and NaN are outside the rounding model."
  },
  {
   "property": "C97",
   "status": "proved",
   "theorems": [
    "Verif.C97_field_function_2d",
    "Verif.C97_field_function_3d"
   ],
   "note": ""
  },
  {
   "property": "C98",
   "status": "partial",
   "theorems": [
    "Verif.C98_objects_are_values_partial",
    "Verif.C98_no_leak_partial",
    "Verif.C98_unnamed_objects_stay_violated",
    "Verif.C98_deleted_object_partial",
    "Verif.C98_not_found_violated",
    "Verif.C98_series_are_values_partial",
    "Verif.C98_deleted_basis_partial"
   ],
   "note": "False of the code for unknown names (C98_not_found_violated) and for objects no variable names any more (C98_unnamed_objects_stay_violated). Proved: everything else, for every program that calls no method of a deleted object; such a call dereferences NULL."
  },
  {
   "property": "C99",
   "status": "proved",
   "theorems": [
    "Verif.C99_files",
    "Verif.C99_reading_unique"
   ],
   "note": ""
  },
  {
   "property": "C100",
   "status": "partial",
   "theorems": [
    "Verif.C100_run_partial",
    "Verif.C100_commands_partial",
    "Verif.C100_compile_partial",
    "Verif.C100_missing_location_violated",
    "Verif.C100_duplicate_violated",
    "Verif.C100_missing_directory_violated",
    "Verif.C100_missing_directory_partial",
    "Verif.C100_options_partial"
   ],
   "note": "False of the code for failed runs: a class declared twice (C100_duplicate_violated) or a missing directory (C100_missing_directory_violated) leaves an empty PLibrary.hh, a missing location ends with status 0 (C100_missing_location_violated), and so does a failing compiler (C100_compile_partial). Proved: valid runs, for every disk and listing order."
  },
  {
   "property": "C101",
   "status": "partial",
   "theorems": [
    "Verif.C101_includes_partial",
    "Verif.C101_includes_violated"
   ],
   "note": "False of the code for headers of the same name (C101_includes_violated); proved when the names of the headers with classes are distinct."
  },
  {
   "property": "C102",
   "status": "proved",
   "theorems": [
    "Verif.C102_value",
    "Verif.C102_gradient",
    "Verif.C102_hessian",
    "Verif.C102_bound",
    "Verif.C102_products",
    "Verif.C102_product_getters"
   ],
   "note": ""
  },
  {
   "property": "C103",
   "status": "partial",
   "theorems": [
    "Verif.C103_quad",
    "Verif.C103_hex_partial",
    "Verif.C103_hex_violated",
    "Verif.C103_directions_violated",
    "Verif.C103_derivatives",
    "Verif.C103_copies_partial",
    "Verif.C103_assign_violated"
   ],
   "note": "Quad: everything but assignment and the four reported variables holds. False of the code: Hexahedron (eval_grad and eval_hess skip direction 2, mixed second derivatives lack a factor), assignment (shared pointers, double delete), copies (not evaluated), grad in direction size()-1. The partial theorems state what does hold."
  },
  {
   "property": "C104",
   "status": "partial",
   "theorems": [
    "Verif.C104_short_file_violated",
    "Verif.C104_no_field_partial",
    "Verif.C104_short_2d_violated"
   ],
   "note": "False of the code: for every file, a cut in the last field is read as zeros (C104_short_file_violated; 2D body without error C104_short_2d_violated). Proved: without the word SCALARS no field is made."
  },
  {
   "property": "C105",
   "status": "partial",
   "theorems": [
    "Verif.C105_node_number_violated",
    "Verif.C105_cell_type_2d_partial",
    "Verif.C105_cell_type_3d_partial",
    "Verif.C105_few_values_2d_violated",
    "Verif.C105_few_values_3d_violated",
    "Verif.C105_sheared_violated",
    "Verif.C105_orientation_violated",
    "Verif.C105_count_violated"
   ],
   "note": "False of the code except for cell types: C105_node_number_violated (every file with such a cell), C105_few_values_2d/3d_violated (every such file, field, and point of such a cell), C105_count_violated, C105_sheared_violated and C105_orientation_violated (concrete files). Proved: an unsupported cell type ends the program with status 1."
  },
  {
   "property": "C106",
   "status": "partial",
   "theorems": [
    "Verif.C106_limits",
    "Verif.C106_clear_partial",
    "Verif.C106_clear_violated"
   ],
   "note": "False of the code for a cleared or default-constructed Bin (C106_clear_violated: every call out of bounds). Proved: limits, and the state after clear()."
  },
  {
   "property": "C107",
   "status": "partial",
   "theorems": [
    "Verif.C107_loads",
    "Verif.C107_outside",
    "Verif.C107_value_error_partial",
    "Verif.C107_one_layer_partial",
    "Verif.C107_3d_violated"
   ],
   "note": "False of the code for stacked cells (C107_3d_violated, binary64): the range test of a hexahedron ignores the third direction (C28). Proved: loading and the outside, always; the bound at every point that is vertically clear, in particular in a mesh of one layer."
  },
  {
   "property": "C108",
   "status": "partial",
   "theorems": [
    "Verif.C108_nodal_exact_partial",
    "Verif.C108_nodal_violated"
   ],
   "note": "False of the code for stacked cells (C108_nodal_violated, binary64). Proved: exactness at every vertically clear node of a conforming mesh."
  },
  {
   "property": "C109",
   "status": "partial",
   "theorems": [
    "Verif.C109_grad_error_partial",
    "Verif.C109_pure_second_zero",
    "Verif.C109_grad_violated"
   ],
   "note": "False of the code for stacked cells (C109_grad_violated) and on cell edges (C96_grad_violated). Proved: the bound at vertically clear points within the computed extent of the cell; pure second derivatives exactly 0 everywhere."
  },
  {
   "property": "C110",
   "status": "proved",
   "theorems": [
    "Verif.C110_linear_2d",
    "Verif.C110_linear_3d"
   ],
   "note": ""
  },
  {
   "property": "C111",
   "status": "proved",
   "theorems": [
    "Verif.C111_continuous"
   ],
   "note": ""
  },
  {
   "property": "C112",
   "status": "partial",
   "theorems": [
    "Verif.C112_single_valued_partial",
    "Verif.C112_nodal_partial",
    "Verif.C112_bounds_partial",
    "Verif.C112_one_layer_partial",
    "Verif.C112_3d_violated"
   ],
   "note": "False of the code for stacked cells (C112_3d_violated): the range test of a hexahedron ignores the third direction (C28). Proved: all three at vertically clear points, in particular in a mesh of one layer."
  },
  {
   "property": "C113",
   "status": "proved",
   "theorems": [
    "Verif.C113_last",
    "Verif.C113_crash",
    "Verif.C113_crashes",
    "Verif.C113_rerun"
   ],
   "note": ""
  },
  {
   "property": "C114",
   "status": "partial",
   "theorems": [
    "Verif.C114_moments_partial",
    "Verif.C114_replace_violated"
   ],
   "note": "False of the code for every valid run (C114_replace_violated): the files are overwritten in place, one after the other. Proved: exactly which states occur."
  },
  {
   "property": "C115",
   "status": "partial",
   "theorems": [
    "Verif.C115_separate_partial",
    "Verif.C115_shared_violated",
    "Verif.C115_same_bin_2d_partial",
    "Verif.C115_same_bin_3d_partial"
   ],
   "note": "False of the code for threads on one body (C115_shared_violated). Proved: threads on different bodies, and threads on different fields of one body whose points are in one bin. Sequentially consistent steps; by the C++ standard the shared case is undefined altogether."
  },
  {
   "property": "C116",
   "status": "proved",
   "theorems": [
    "Verif.C116_monomials",
    "Verif.C116_shape"
   ],
   "note": ""
  },
  {
   "property": "C117",
   "status": "partial",
   "theorems": [
    "Verif.C117_chebyshev_partial",
    "Verif.C117_interval_partial",
    "Verif.C117_parity_partial",
    "Verif.C117_bounded_violated"
   ],
   "note": "False of the code for values on [-1,1] (C117_bounded_violated, binary64). Proved: error bounds relative to the sum of the absolute values of the terms; parity."
  },
  {
   "property": "C118",
   "status": "proved",
   "theorems": [
    "Verif.C118_quadratic",
    "Verif.C118_myfunc"
   ],
   "note": ""
  },
  {
   "property": "C119",
   "status": "proved",
   "theorems": [
    "Verif.C119_value",
    "Verif.C119_gradient",
    "Verif.C119_hessian"
   ],
   "note": ""
  },
  {
   "property": "C120",
   "status": "proved",
   "theorems": [
    "Verif.C120_load_2d",
    "Verif.C120_load_3d",
    "Verif.C120_fields_2d",
    "Verif.C120_fields_3d",
    "Verif.C120_history_2d",
    "Verif.C120_history_3d"
   ],
   "note": ""
  },
  {
   "property": "C121",
   "status": "proved",
   "theorems": [
    "Verif.C121_geometry_only",
    "Verif.C121_renumber"
   ],
   "note": ""
  },
  {
   "property": "C122",
   "status": "proved",
   "theorems": [
    "Verif.C122_locked_2d",
    "Verif.C122_locked_3d"
   ],
   "note": ""
  },
  {
   "property": "C123",
   "status": "partial",
   "theorems": [
    "Verif.C123_finite",
    "Verif.C123_refused_2d",
    "Verif.C123_refused_3d",
    "Verif.C123_nan_violated_2d",
    "Verif.C123_nan_violated_3d"
   ],
   "note": "False of the code for NaN (C123_nan_violated_2d/3d): Bin.hh:185 refuses only what compares less or greater. Proved: infinite and out-of-range coordinates are refused, finite ones behave as in the exact model."
  },
  {
   "property": "C124",
   "status": "proved",
   "theorems": [
    "Verif.C124_defined",
    "Verif.C124_nan",
    "Verif.C124_left",
    "Verif.C124_disc",
    "Verif.C124_real",
    "Verif.C124_outside"
   ],
   "note": ""
  },
  {
   "property": "C125",
   "status": "partial",
   "theorems": [
    "Verif.C125_number",
    "Verif.C125_enough_digits_partial",
    "Verif.C125_restored_partial",
    "Verif.C125_any_precision",
    "Verif.C125_tokens_partial",
    "Verif.C125_default_precision_violated"
   ],
   "note": "False of the code with the default precision of a stream (C125_default_precision_violated, any series with the coefficient 1/3). Proved: exactly what comes back for every precision; exact from 17 digits on. Exponent range unbounded; no infinities or NaN."
  },
  {
   "property": "C126",
   "status": "proved",
   "theorems": [
    "Verif.C126_read_is_load",
    "Verif.C126_file_2d",
    "Verif.C126_file_3d"
   ],
   "note": ""
  },
  {
   "property": "C127",
   "status": "proved",
   "theorems": [
    "Verif.C127_same_2d",
    "Verif.C127_same_3d",
    "Verif.C127_value_2d",
    "Verif.C127_nodal_2d",
    "Verif.C127_value_3d",
    "Verif.C127_file_2d",
    "Verif.C127_file_3d"
   ],
   "note": ""
  },
  {
   "property": "C128",
   "status": "proved",
   "theorems": [
    "Verif.C128_numeral",
    "Verif.C128_taken",
    "Verif.C128_malformed",
    "Verif.C128_printed",
    "Verif.C128_same_body"
   ],
   "note": ""
  },
  {
   "property": "C129",
   "status": "proved",
   "theorems": [
    "Verif.C129_value_2d",
    "Verif.C129_gradient_2d",
    "Verif.C129_value_3d",
    "Verif.C129_value_3d_clear",
    "Verif.C129_gradient_3d",
    "Verif.C129_continuous_2d",
    "Verif.C129_continuous_3d",
    "Verif.C129_doubles_2d",
    "Verif.C129_doubles_3d"
   ],
   "note": ""
  },
  {
   "property": "C130",
   "status": "proved",
   "theorems": [
    "Verif.C130_doubles_2d",
    "Verif.C130_doubles_3d",
    "Verif.C130_exact_2d",
    "Verif.C130_exact_3d",
    "Verif.C130_geometry_only_3d"
   ],
   "note": ""
  },
  {
   "property": "C131",
   "status": "partial",
   "theorems": [
    "Verif.C131_factors",
    "Verif.C131_factor_2d",
    "Verif.C131_factor_3d",
    "Verif.C131_order_2d",
    "Verif.C131_order_3d_partial",
    "Verif.C131_range_2d",
    "Verif.C131_sign_3d_partial",
    "Verif.C131_sign_3d_violated"
   ],
   "note": "False of the code for signs and order in 3D at points near another layer (C131_sign_3d_violated; the layer defect of C28). Proved: everything else, and 3D at vertically clear points. Exponent range unbounded."
  },
  {
   "property": "C132",
   "status": "proved",
   "theorems": [
    "Verif.C132_any_history_2d",
    "Verif.C132_any_history_3d",
    "Verif.C132_units_2d",
    "Verif.C132_units_3d",
    "Verif.C132_history_2d",
    "Verif.C132_history_3d",
    "Verif.C132_needs_powers"
   ],
   "note": ""
  },
  {
   "property": "C133",
   "status": "proved",
   "theorems": [
    "Verif.C133_dichotomy_2d",
    "Verif.C133_dichotomy_3d",
    "Verif.C133_once_always_2d",
    "Verif.C133_once_always_3d",
    "Verif.C133_body_kept"
   ],
   "note": ""
  },
  {
   "property": "C134",
   "status": "proved",
   "theorems": [
    "Verif.C134_same",
    "Verif.C134_value",
    "Verif.C134_gradient",
    "Verif.C134_hessian",
    "Verif.C134_monomials",
    "Verif.C134_polynomial_value",
    "Verif.C134_polynomial_gradient",
    "Verif.C134_polynomial_hessian",
    "Verif.C134_quadratic",
    "Verif.C134_myfunc"
   ],
   "note": ""
  },
  {
   "property": "C135",
   "status": "partial",
   "theorems": [
    "Verif.C135_insertion",
    "Verif.C135_missing_file_violated",
    "Verif.C135_reading_partial",
    "Verif.C135_roundings"
   ],
   "note": "False of the code where C36 is: a missing file is never done with. Proved: insertion always ends; every run of the reader that does not end got there through a stream that failed before the end of the file."
  },
  {
   "property": "C136",
   "status": "partial",
   "theorems": [
    "Verif.C136_locked_partial",
    "Verif.C136_separate_partial",
    "Verif.C136_progress",
    "Verif.C136_shared_violated"
   ],
   "note": "False of the code without locks: C136_shared_violated (180 instead of 90 at one point of one series). Proved: threads with series of their own, threads that share series with a lock around each evaluation, and that every thread finishes under every schedule."
  },
  {
   "property": "C137",
   "status": "proved",
   "theorems": [
    "Verif.C137_value",
    "Verif.C137_exception"
   ],
   "note": ""
  },
  {
   "property": "C138",
   "status": "partial",
   "theorems": [
    "Verif.C138_size_violated",
    "Verif.C138_exactly_2d_partial",
    "Verif.C138_exactly_3d_partial",
    "Verif.C138_diagonal_violated",
    "Verif.C138_any_arithmetic_violated",
    "Verif.C138_float_2d_partial",
    "Verif.C138_float_3d_partial"
   ],
   "note": "False of the code for meshes with many distinct coordinates (C138_size_violated, C138_diagonal_violated). Proved: a mesh of rectangles is read exactly when its bins fit an int, in exact and in floating-point arithmetic (there for resolved meshes, as in C94). Memory is unlimited in the model."
  },
  {
   "property": "C139",
   "status": "proved",
   "theorems": [
    "Verif.C139_first_cell_2d",
    "Verif.C139_first_cell_3d",
    "Verif.C139_first_cell_3d_clear"
   ],
   "note": ""
  },
  {
   "property": "C140",
   "status": "proved",
   "theorems": [
    "Verif.C140_turned_2d",
    "Verif.C140_turned_3d"
   ],
   "note": ""
  },
  {
   "property": "C141",
   "status": "proved",
   "theorems": [
    "Verif.C141_doubles_terms",
    "Verif.C141_doubles_value",
    "Verif.C141_doubles_gradient",
    "Verif.C141_doubles_hessian",
    "Verif.C141_value",
    "Verif.C141_gradient",
    "Verif.C141_hessian",
    "Verif.C141_interval"
   ],
   "note": ""
  },
  {
   "property": "C142",
   "status": "partial",
   "theorems": [
    "Verif.C142_locked_partial",
    "Verif.C142_shared_partial",
    "Verif.C142_separate_partial",
    "Verif.C142_progress",
    "Verif.C142_alone",
    "Verif.C142_shared_violated"
   ],
   "note": "False of the code for threads that compute the same component of one function at different points without locks: C142_shared_violated (25 instead of 9). Proved: with a lock around each evaluation; without locks when the threads compute different components, or common ones only where they have the same value, or different functions; that every thread finishes under every schedule."
  },
  {
   "property": "C143",
   "status": "partial",
   "theorems": [
    "Verif.C143_locked_partial",
    "Verif.C143_shared_partial",
    "Verif.C143_separate_partial",
    "Verif.C143_progress",
    "Verif.C143_alone",
    "Verif.C143_shared_violated"
   ],
   "note": "False of the code for threads that evaluate one piecewise function on different sides of a condition without locks: C143_shared_violated (a wrong value; std::domain_error although the point is in a piece). Proved: with a lock around each evaluation; without locks when no two threads are on different sides of a condition or ask for different values, or evaluate different functions; that every thread finishes under every schedule."
  },
  {
   "property": "C144",
   "status": "partial",
   "theorems": [
    "Verif.C144_copies_partial",
    "Verif.C144_values",
    "Verif.C144_getters",
    "Verif.C144_destroy_violated",
    "Verif.C144_assign_violated",
    "Verif.C144_read_violated"
   ],
   "note": "False of the code: the fields of a copy keep pointing to the mesh of the source, so assigning to the source or reading into it changes the copy (C144_assign_violated, C144_read_violated), and destroying any body with cells is undefined (C144_destroy_violated). Proved: bodies behave as values in every history in which the source of a copy is left alone. Memory allocation is not modelled (an assignment leaks the cells of the target)."
  },
  {
   "property": "C145",
   "status": "partial",
   "theorems": [
    "Verif.C145_repeated_partial",
    "Verif.C145_mixed_partial",
    "Verif.C145_twice_violated",
    "Verif.C145_xyz_violated"
   ],
   "note": "False of the code: mixed second derivatives of 3D fields are twice the mean of those on two faces of the cell (C145_twice_violated and C145_xyz_violated for every mesh, history and point). Proved: repeated directions and symmetry (C145_repeated_partial), and the exact number returned (C145_mixed_partial)."
  },
  {
   "property": "C146",
   "status": "partial",
   "theorems": [
    "Verif.C146_clear_partial",
    "Verif.C146_one_layer_partial",
    "Verif.C146_jump_violated"
   ],
   "note": "False of the code for stacked cells (C146_jump_violated). Proved: continuous on the part of the body where only cells that contain the point come near it (C146_clear_partial), and on all of it for one layer of cells (C146_one_layer_partial)."
  },
  {
   "property": "C147",
   "status": "partial",
   "theorems": [
    "Verif.C147_argv_partial",
    "Verif.C147_blank_violated",
    "Verif.C147_semicolon_violated"
   ],
   "note": "False of the code for paths with blanks (C147_blank_violated) or semicolons (C147_semicolon_violated). Proved: paths of plain characters. The shell is specified only for lines without quotes, expansions and redirections."
  },
  {
   "property": "C148",
   "status": "partial",
   "theorems": [
    "Verif.C148_local_2d",
    "Verif.C148_bound_2d",
    "Verif.C148_local_3d_partial",
    "Verif.C148_clear_3d_partial",
    "Verif.C148_rounded_2d",
    "Verif.C148_rounded_3d_partial",
    "Verif.C148_stacked_violated"
   ],
   "note": "False of the code for stacked cells (C148_stacked_violated; the layer defect of C28). Proved: 2D, exact and rounded; 3D at vertically clear points, exact and rounded, and everywhere for cells that reach the layer."
  },
  {
   "property": "C149",
   "status": "partial",
   "theorems": [
    "Verif.C149_value_2d",
    "Verif.C149_derivatives_2d",
    "Verif.C149_value_3d_partial",
    "Verif.C149_gradient_3d_partial",
    "Verif.C149_stacked_violated"
   ],
   "note": "False of the code for stacked cells (C149_stacked_violated; the layer defect of C28). Proved: 2D; 3D values and first derivatives at vertically clear points. Exact arithmetic."
  },
  {
   "property": "C150",
   "status": "proved",
   "theorems": [
    "Verif.C150_order",
    "Verif.C150_in_piece",
    "Verif.C150_simple",
    "Verif.C150_shadowed",
    "Verif.C150_getters",
    "Verif.C150_conditions"
   ],
   "note": ""
  },
  {
   "property": "C151",
   "status": "proved",
   "theorems": [
    "Verif.C151_permuted",
    "Verif.C151_longer"
   ],
   "note": ""
  },
  {
   "property": "C152",
   "status": "partial",
   "theorems": [
    "Verif.C152_value_2d",
    "Verif.C152_one_cell_2d",
    "Verif.C152_value_3d_partial",
    "Verif.C152_one_cell_3d_partial",
    "Verif.C152_outside_2d",
    "Verif.C152_stacked_violated",
    "Verif.C152_rounded_2d",
    "Verif.C152_rounded_3d_partial"
   ],
   "note": "False of the code for stacked cells (C152_stacked_violated; the layer defect of C28). Proved: 2D; 3D at vertically clear points; inside cells in floating-point arithmetic as well."
  },
  {
   "property": "C153",
   "status": "proved",
   "theorems": [
    "Verif.C153_accepted",
    "Verif.C153_same_classes",
    "Verif.C153_reordered",
    "Verif.C153_other_text",
    "Verif.C153_same_files",
    "Verif.C153_only_declarations"
   ],
   "note": ""
  },
  {
   "property": "C154",
   "status": "proved",
   "theorems": [
    "Verif.C154_built",
    "Verif.C154_nested",
    "Verif.C154_flat",
    "Verif.C154_uncovered"
   ],
   "note": ""
  }
 ]
}