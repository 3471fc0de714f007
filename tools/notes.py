NA = {}
FORCE = {}
NOTES = {
"C16": "Quad: proved. Hexahedron: gradient proved; the mixed second derivatives returned drop the factor of the third direction, so that part is false of the code: C16_hex_hess_factor_violated gives the right number for every cell and point.",
"C146": "False of the code for stacked cells (C146_jump_violated). Proved: continuous on the part of the body where only cells that contain the point come near it (C146_clear_partial), and on all of it for one layer of cells (C146_one_layer_partial).",
"C145": "False of the code: mixed second derivatives of 3D fields are twice the mean of those on two faces of the cell (C145_twice_violated and C145_xyz_violated for every mesh, history and point). Proved: repeated directions and symmetry (C145_repeated_partial), and the exact number returned (C145_mixed_partial).",
"C19": "False of the code: is_in_range of a hexahedron ignores the third coordinate (witness theorem). What the tests do cover is proved.",
"C21": "Quad: proved. Hexahedron: eval_grad/eval_hess skip the components of the third direction (witness theorem).",
"C28": "False of the code as stated (C28_3d_violated). Proved: correct when no other cell over or under the point comes within one bin margin of it, and always for one layer of cells.",
"C29": "False of the code (C29_stale_violated; for every mesh, C29_repeats_2d/3d_violated: at such a point of the bin in which the field was last evaluated, every evaluation of any kind repeats the last number returned). Proved: value, gradient and Hessian are 0 as long as the field was never evaluated inside a cell (3D: over or under one).",
"C07": "True part proved for every usable shape; the code has undefined behaviour for an empty extents list and for int overflow (witness theorems), so the full claim is false of the code.",
"C69": "False of the code: witness theorem; the true part (values unchanged) is proved.",
"C142": "False of the code for threads that compute the same component of one function at different points without locks: C142_shared_violated (25 instead of 9). Proved: with a lock around each evaluation; without locks when the threads compute different components, or common ones only where they have the same value, or different functions; that every thread finishes under every schedule.",
"C10": "False of the code at the upper limit, which the range check accepts: out of bounds in one dimension, for every Bin (C10_at_max_1d_violated), another bin, or out of bounds, in two, for every Bin (C10_at_max_2d_violated). Proved: for every coordinate below the upper limits.",
"C40": "False of the code for every handle: self-assignment uses a freed object (C40_self_assign_violated), assignment from an empty handle dereferences NULL (C40_empty_assign_violated). Proved: assignment between handles that hold functions.",
"C144": "False of the code: the fields of a copy keep pointing to the mesh of the source, so assigning to the source or reading into it changes the copy (C144_assign_violated, C144_read_violated), and destroying any body with cells is undefined (C144_destroy_violated). Proved: bodies behave as values in every history in which the source of a copy is left alone. Memory allocation is not modelled (an assignment leaks the cells of the target).",
"C143": "False of the code for threads that evaluate one piecewise function on different sides of a condition without locks: C143_shared_violated (a wrong value; std::domain_error although the point is in a piece). Proved: with a lock around each evaluation; without locks when no two threads are on different sides of a condition or ask for different values, or evaluate different functions; that every thread finishes under every schedule.",
"C136": "False of the code without locks: C136_shared_violated (180 instead of 90 at one point of one series). Proved: threads with series of their own, threads that share series with a lock around each evaluation, and that every thread finishes under every schedule.",
"C135": "False of the code where C36 is: a missing file is never done with. Proved: insertion always ends; every run of the reader that does not end got there through a stream that failed before the end of the file.",
"C36": "False of the code: a missing file and a malformed number make read_vtk loop for ever (witness theorems, for every number of passes). Proved: every run that does not end got there through a stream that failed before the end of the file.",
"C49": "False of the code (witness theorems: stale values, out-of-bounds term index). Proved: what is returned in every case after an evaluation at y and any single-shot calls (C49_grad_exact_partial, C49_hess_exact_partial): the derivative at the point with the differentiated coordinates of x and the other coordinates of y, or undefined behaviour; so it is right where the series was just evaluated at the same point and every other coordinate, truncated, is a term index (C49_single_shot_partial).",
"C50": "False of the code for every series and argument (C50_through_PFunction_violated). Proved: the value is available through a PFunction.",
"C72": "False of the code (witness theorems for every function). Proved: copying a function with a value part.",
"C73": "False of the code for every series (C73_series_metadata_violated).",
"C59": "csrc and sym: proved. latex is false of the code with three or more conditions and for an empty list (witness theorems); proved for at most two conditions per piece.",
"C74": "False of the code for every list of pieces (C74_violated). Proved: a single piece reports what its expression reports.",
"C75": "False of the code (C75_signatures_once_violated). Proved for type lists without repetitions and disjoint from the input types of the scanned classes.",
"C76": "False of the code (C76_declaration_violated: blanks before , and >). Proved: recognised exactly, for lines without them (and with the output type free of commas, no other base class, no > after the declaration); everything recognised is there (C76_sound).",
"C79": "False of the code: a copy loses the stored value (C79_copy_violated), assignment has no defined result, leaks and double frees (C79_assign_violated). Proved: without assignment, every history behaves as values, a copy being a freshly constructed object.",
"C82": "False of the code (C82_names_violated: no buffer size suffices for every name). Proved: stored intact exactly when the buffer has room for it.",
"C84": "False of the code (C84_get_derivatives_violated, C84_names_violated, C84_series_methods_violated). Proved for the other methods: functions, simple functions, series (values, derivatives, coefficients, shape), set, construction.",
"C86": "False of the code for max_size (C86_max_size_violated: -1 for a class without a limit). Everything else is proved.",
"C88": "False of the code for deleting (C88_delete_body_violated: the destructor of Mesh deletes interpolators through a base class without virtual destructor; C88_delete_view_partial). Proved: in every history that obeys the rules every variable behaves as a value, nothing is lost or shared.",
"C90": "False of the code: for every mesh, field and point, reading the same file twice doubles the field (C90_same_file_violated, 2D and 3D); concrete witnesses for another file and for earlier views. Proved: points and fields are appended unchanged and lookup by name keeps finding the earlier field.",
"C92": "False of the code for name, get_grad, get_hess and delete (undefined for every field object and body: C92_methods_*_violated). Proved: everything else, for every program that deletes nothing.",
"C93": "Every coordinate within the limits has a bin: false of the code (C93_below_max_violated, binary64). Proved: the rest, and that every coordinate more than 4 relative roundoffs below the upper limit has a bin. Overflow, underflow and NaN are outside the rounding model.",
"C96": "False of the code on cell edges (C96_grad_violated, C96_hess_violated, binary64). Proved: the bounds at every coordinate within the computed extent of its cell; pure second derivatives exactly 0 everywhere. Overflow, underflow and NaN are outside the rounding model.",
"C98": "False of the code for unknown names (C98_not_found_violated) and for objects no variable names any more (C98_unnamed_objects_stay_violated). Proved: everything else, for every program that calls no method of a deleted object; such a call dereferences NULL.",
"C100": "False of the code for failed runs: a class declared twice (C100_duplicate_violated) or a missing directory (C100_missing_directory_violated) leaves an empty PLibrary.hh, a missing location ends with status 0 (C100_missing_location_violated), and so does a failing compiler (C100_compile_partial). Proved: valid runs, for every disk and listing order.",
"C101": "False of the code for headers of the same name (C101_includes_violated); proved when the names of the headers with classes are distinct.",
"C103": "Quad: everything but assignment and the four reported variables holds. False of the code: Hexahedron (eval_grad and eval_hess skip direction 2, mixed second derivatives lack a factor), assignment (shared pointers, double delete), copies (not evaluated), grad in direction size()-1. The partial theorems state what does hold.",
"C104": "False of the code: for every file, a cut in the last field is read as zeros (C104_short_file_violated; 2D body without error C104_short_2d_violated). Proved: without the word SCALARS no field is made.",
"C105": "False of the code except for cell types: C105_node_number_violated (every file with such a cell), C105_few_values_2d/3d_violated (every such file, field, and point of such a cell), C105_count_violated, C105_sheared_violated and C105_orientation_violated (concrete files). Proved: an unsupported cell type ends the program with status 1.",
"C106": "False of the code for a cleared or default-constructed Bin (C106_clear_violated: every call out of bounds). Proved: limits, and the state after clear().",
"C107": "False of the code for stacked cells (C107_3d_violated, binary64): the range test of a hexahedron ignores the third direction (C28). Proved: loading and the outside, always; the bound at every point that is vertically clear, in particular in a mesh of one layer.",
"C108": "False of the code for stacked cells (C108_nodal_violated, binary64). Proved: exactness at every vertically clear node of a conforming mesh.",
"C109": "False of the code for stacked cells (C109_grad_violated) and on cell edges (C96_grad_violated). Proved: the bound at vertically clear points within the computed extent of the cell; pure second derivatives exactly 0 everywhere.",
"C112": "False of the code for stacked cells (C112_3d_violated): the range test of a hexahedron ignores the third direction (C28). Proved: all three at vertically clear points, in particular in a mesh of one layer.",
"C114": "False of the code for every valid run (C114_replace_violated): the files are overwritten in place, one after the other. Proved: exactly which states occur.",
"C115": "False of the code for threads on one body (C115_shared_violated). Proved: threads on different bodies, and threads on different fields of one body whose points are in one bin. Sequentially consistent steps; by the C++ standard the shared case is undefined altogether.",
"C117": "False of the code for values on [-1,1] (C117_bounded_violated, binary64). Proved: error bounds relative to the sum of the absolute values of the terms; parity.",
"C123": "False of the code for NaN (C123_nan_violated_2d/3d): Bin.hh:185 refuses only what compares less or greater. Proved: infinite and out-of-range coordinates are refused, finite ones behave as in the exact model.",
"C125": "False of the code with the default precision of a stream (C125_default_precision_violated, any series with the coefficient 1/3). Proved: exactly what comes back for every precision; exact from 17 digits on. Exponent range unbounded; no infinities or NaN.",
"C131": "False of the code for signs and order in 3D at points near another layer (C131_sign_3d_violated; the layer defect of C28). Proved: everything else, and 3D at vertically clear points. Exponent range unbounded.",
"C138": "False of the code for meshes with many distinct coordinates (C138_size_violated, C138_diagonal_violated). Proved: a mesh of rectangles is read exactly when its bins fit an int, in exact and in floating-point arithmetic (there for resolved meshes, as in C94). Memory is unlimited in the model.",
"C147": "False of the code for paths with blanks (C147_blank_violated) or semicolons (C147_semicolon_violated). Proved: paths of plain characters. The shell is specified only for lines without quotes, expansions and redirections.",
"C148": "False of the code for stacked cells (C148_stacked_violated; the layer defect of C28). Proved: 2D, exact and rounded; 3D at vertically clear points, exact and rounded, and everywhere for cells that reach the layer.",
"C149": "False of the code for stacked cells (C149_stacked_violated; the layer defect of C28). Proved: 2D; 3D values and first derivatives at vertically clear points. Exact arithmetic.",
"C152": "False of the code for stacked cells (C152_stacked_violated; the layer defect of C28). Proved: 2D; 3D at vertically clear points; inside cells in floating-point arithmetic as well.",
}
