# Formal model of prisms-center/IntegrationTools in Lean 4

(Written by `tools/design.py` from `tools/design_head.md`, `tools/design_plan.txt`, `properties.jsonl` and `MANIFEST.json`.)

## 1. Trusted base

* Lean 4.33.0's kernel, and the Lean/Mathlib libraries as checked by it.
* Axioms: every property theorem depends on at most `propext`, `Classical.choice`, `Quot.sound` (Lean's standard three). No axiom is
  added; no compiled evaluation is used (`decide +kernel` is evaluation by the kernel).
* The reading of the C++ and Python: each definition in `lean/Verif/Model/` cites the file and lines of `/repo` it models. The code is not
  compiled or executed here, so the faithfulness of that reading is trusted. `Model/TestlibData.lean` is generated from the headers by
  `tools/gen_testlib.py` (verbatim copies of expressions and strings).
* The specifications in `lean/Verif/Spec/`, which do not mention the model, and the statements in `lean/Verif/Props/`.
* The semantics given to C++ in `Model/Core.lean`:
  * `std::vector` is a `List`; `v[i]` outside `[0,size)` is the outcome `ub oob`;
  * `int` is `Int` with arithmetic results checked against `[-2^31, 2^31-1]`; outside is `ub overflow`; `/` truncates, division by zero is
    `ub divZero`;
  * NULL dereference, use after free, double free, deleting through a wrong type, calling with wrong arguments, reading an uninitialised
    object and flowing off the end of a non-void function are distinct `ub` outcomes. Undefined behaviour is an outcome, and the theorems say
    where it happens; nothing is claimed about a program after it;
  * exceptions keep the object state reached when they were thrown; `exit(n)` is the outcome `exit n`; a loop that does not end is the
    outcome `diverge` (for every bound on the number of passes);
  * `double` is modelled **exactly**, by an arbitrary linearly ordered field `K` (with floor where needed); `ℚ` in examples and `ℝ` where
    derivatives or roots are mentioned. Rounding, NaN, infinities and `-0` are not modelled unless a property says so: numeric claims read
    "in exact arithmetic";
  * C93-C96, C102, C107-C109, C116-C119, C126, C127, C129-C134 and C141 (as far as they speak of rounding) use second models, `Model/Rounded.lean`, `Model/RoundedSeries.lean` and `Model/RoundedTestlib.lean` (the objects of `Model/Testlib.lean` with rounding operations), in which the result of every `+ - * /` on doubles is rounded by a function of which
    only the axioms of `Spec/Rounding.lean` are used (monotone, idempotent, odd, fixes 1, relative error at most `u`);
    `nearestEven p` is proved to satisfy them for every precision `p`. Overflow, underflow, NaN, extended precision and fused operations are
    outside that model; C127 shows that with coordinates and values of moderate size the results about fields (C94-C96, C107-C109, C126), and C134 and C141 that those about series and shipped functions (C102, C116-C119), hold
    for doubles with their exponent range, because no operation overflows or underflows. With `rnd = id` they are the exact models (`Fl.rounded_id`, `Fl.Ser.rounded_id`);
  * the conversion between doubles and characters is a parameter (`scan`, `fmt`, `parse`), with a round-trip hypothesis where needed (C125 models the conversions of the standard library and shows when the hypothesis holds);
  * memory exhaustion (`bad_alloc`), I/O failures other than those described, and threads (except in C115, C122, `Model/Threads.lean`, C136, `Model/ThreadsSeries.lean`, C142, `Model/ThreadsFunc.lean`, and C143, `Model/ThreadsPiecewise.lean`) are not modelled.

## 2. What is modelled

| code | model |
|---|---|
| `datastruc/PNDArray.hh` (all members) | `Model/NDArray.lean` |
| `datastruc/Bin.hh` (all members but the unused private `max_indices`) | `Model/Bin.lean` |
| `pfield/Coordinate.hh` | `Model/Coordinate.lean` (elsewhere a coordinate is a function `Fin DIM → K`) |
| `pfield/interpolation/{Interpolator,Quad,Hexahedron}.hh` | `Model/Interp.lean`; the element functions as objects `Model/ElemObject.lean` |
| `pfield/{Mesh,PField,Body}.hh` | `Model/Mesh.lean`, `Model/Field.lean`, text level `Model/Stream.lean`, `Model/Vtk.lean`; ownership `Model/BodyExtern.lean` |
| Bin.hh, Quad.hh, Hexahedron.hh, Mesh.hh, PField.hh in floating-point arithmetic (2D and 3D: construction, value, grad, hess) | `Model/Rounded.lean` |
| Bin.hh, PNDArray.hh, Mesh.hh, PField.hh: the evaluation step by step, for threads (sequentially consistent) | `Model/Threads.lean` |
| PSeriesFunction.hh, PBasisSetBase.hh: the evaluation access by access, for threads (sequentially consistent) | `Model/ThreadsSeries.lean` |
| PFlexFunction.hh, PSimpleFunction.hh, PSimpleBase.hh: the evaluation access by access, for threads (sequentially consistent) | `Model/ThreadsFunc.lean` |
| PPieceWiseSimpleBase.hh, SimplePiece.hh, PSimpleBase.hh: the evaluation access by access, for threads (sequentially consistent; a condition or an expression is taken to store nothing but its own `_val`) | `Model/ThreadsPiecewise.lean`, `Model/Conc.lean` |
| Body.hh, Mesh.hh, PField.hh: bodies as C++ variables (implicit copy and assignment, destructor; interpolators are shared by pointer, in the model by value, as nothing changes them) | `Model/BodyCopy.lean` |
| the same with basis functions that throw | `Model/SeriesThrow.lean` |
| `pfunction/{PSimpleBase,PSimpleFunction,PFuncBase,PFunction,PBasisSet,PFlexFunction}.hh` | `Model/Simple.lean`, `Model/Handle.lean`, `Model/Func.lean` |
| `pfunction/{PBasisSetBase,PSeriesFunction}.hh` | `Model/Series.lean`, `Model/SeriesOps.lean` |
| tests/testlib: Monomial, Chebyshev, Quadratic, MyFunc in floating-point arithmetic | `Model/RoundedTestlib.lean` |
| Bin.hh, Mesh.hh, PField.hh: the bin lookup of an evaluation with infinite and NaN coordinates (finite arithmetic exact) | `Model/Special.lean` |
| tests/testlib/MyPieceWiseFunc.hh over any arithmetic, IEEE doubles with overflow, infinities and NaN among them (`pow` any function) | `Model/SpecialPiecewise.lean` |
| C++ standard library: `ostream << double` with a given precision, `istream >> double` (as print_coeff, read_coeff and the vtk readers use them) | `Model/NumText.lean` |
| Body.hh `read_vtk` and Mesh.hh `read_vtk` with every arithmetic operation and every number of the file rounded | `Model/RoundedVtk.lean` (over `Model/Vtk.lean`, `Model/NumText.lean`, `Model/Rounded.lean`) |
| PSeriesFunction.hh in floating-point arithmetic (evaluation, derivatives, basis products; basis functions with errors) | `Model/RoundedSeries.lean` |
| `piecewise/*.hh` | `Model/Piecewise.lean` |
| `src/lw/lw.cpp` (file filters, regular expression, collection, generated header and source; their text; `main`, also interrupted at any moment before compiling) | `Model/Library.lean`, `Model/LwText.lean`, `Model/LwMain.lean` |
| `src/c/PExtern.cc` (`write_pextern_cc` in `lw.cpp` writes the same text) | `Model/Extern.lean`, `Model/BodyExtern.lean` |
| `src/python/pfunction/*.py` | `Model/Python.lean`, `Model/PyField.lean`, `Model/PyObject.lean` |
| `tests/testlib/{Monomial,Chebyshev,Quadratic,MyFunc,MyPieceWiseFunc}.hh` (the shipped generated library) | `Model/Testlib*.lean` |

Not modelled: parsing the command line, messages and the effect of compiler calls of `lw` (`Collection::write`, `now`), the build system, `BP_StopWatch`, the test programs, `pextern_test.py`. Members that do not compile when instantiated
(`PBasisSet::set`, `PBasisSet::description`) have no behaviour to model. Simplifications are stated in the comment of the definition or at
the head of the file.

## 3. Method

Executable definitions in `Model/`; small independent specifications in `Spec/`; helper lemmas in `Lemmas/`; property theorems in `Props/`,
each followed by an `example` showing that a concrete, non-trivial case meets its hypotheses. Stateful properties quantify over histories
(lists of calls, exceptions caught by the caller) and are proved by induction with an invariant, or by refinement to a specification without
addresses. Loops without an evident bound get fuel and a theorem that the fuel suffices.

Properties that the code violates get (a) theorems with suffix `_violated` that exhibit the violation, where possible for every input rather
than one, and (b) the strongest true part, suffix `_partial`; the status is then `partial`, since the full claim is false of the code.

The theorems are tested against seeded bugs in a scratch copy: `seeded/LOG.jsonl`.

## 4. Per property: what is modelled, how it is proved

* **C01** Linear -> tensor -> linear index round trip (proved) — Index maps as the loops over the unroll list; induction on the extents list against a product specification. Theorems: `C01_linear_tensor_linear`.
* **C02** Tensor -> linear -> tensor index round trip (proved) — Same induction in the other direction; injectivity as a corollary. Theorems: `C02_tensor_linear_tensor`.
* **C03** Row-major storage order (proved) — Equality with a Horner row-major recursion, and lexicographic order iff. Theorems: `C03_row_major`.
* **C04** Element writes touch exactly one element (proved) — List update lemma and injectivity (C02). Theorems: `C04_write_frame`.
* **C05** reshape keeps values and refuses a different volume (proved) — Case split on equality of the volumes; frame of the value list. Theorems: `C05_reshape`, `C05_every`, `C05_limits`.
* **C06** Array shape invariant over any history (proved) — Run function over a list of calls (exceptions caught); invariant by induction. Theorems: `C06_shape_invariant`, `C06_extents`.
* **C07** Array operations are memory-safe for every shape (partial) — Safety under positive extents with volume in `int`; theorems for the two undefined cases, and that positive extents are exactly what is needed. Theorems: `C07_memory_safe_partial`, `C07_products_fit_partial`, `C07_empty_dims_violated`, `C07_overflow_violated`, `C07_positive_extents_iff`.
* **C08** Bin contents = items added to that bin, in order (proved) — Refinement of the bin to a function from index tuples to lists, over any list of calls. Theorems: `C08_contents_history`.
* **C09** Out-of-range coordinates are rejected and change nothing (proved) — Loop lemma on the range check; frame of the stored items. Theorems: `C09_out_of_range_rejected`.
* **C10** Every coordinate accepted by the range check addresses its own bin (partial) — Floor inequality for c < max; the code is wrong at c = max: one dimension (undefined, for every grid), two dimensions (another bin). Theorems: `C10_accepted_coordinate_partial`, `C10_at_max_1d_violated`, `C10_at_max_2d_alias_violated`, `C10_at_max_2d_violated`.
* **C11** add_range fills exactly the box (proved) — The odometer enumerates exactly the box (rank function, induction on the dimension); every bin has a coordinate. Theorems: `C11_add_range_box`, `C11_every_bin_has_a_coordinate`.
* **C12** add_once is idempotent and creates no duplicates (proved) — List lemma lifted by C08's refinement. Theorems: `C12_add_once_nodup`, `C12_add_once_idempotent`.
* **C13** max_size is the exact maximum bin size (proved) — Fold-max lemma over all bins. Theorems: `C13_max_size`.
* **C14** Shape functions are nodal (proved) — Field algebra per corner, against the corner positions of `Spec/Cell`. Theorems: `C14_nodal_quad`, `C14_nodal_hex`.
* **C15** Partition of unity (proved) — Field algebra: sum of the shape functions of a cell. Theorems: `C15_partition_of_unity_quad`, `C15_partition_of_unity_hex`.
* **C16** Interpolator gradients and Hessians are the true derivatives (partial) — `HasDerivAt` over the reals; the Hexahedron Hessian compared with the true derivative at every point. Theorems: `C16_hex_hess_factor_violated`, `C16_quad_derivatives`, `C16_hex_derivatives_partial`, `C16_hex_hess_violated`.
* **C17** Shape functions lie in [0,1] inside the cell (proved) — Ordered-field argument per factor. Theorems: `C17_bounds_quad`, `C17_bounds_hex`.
* **C18** Quad range test covers exactly the closed cell (proved) — Interval case split per direction, iff. Theorems: `C18_quad_range`.
* **C19** Hexahedron range test covers exactly the closed cell (partial) — Iff for what the code tests (two directions), and a counterexample in the third. Theorems: `C19_hex_range_partial`, `C19_hex_range_violated`.
* **C20** Interpolator min()/max() is the cell's bounding box (proved) — Field algebra per corner. Theorems: `C20_bounding_box`.
* **C21** eval_grad/eval_hess of the element functions refresh every component (partial) — State of the element function objects as stored components; all components refreshed (quad), counterexample (hexahedron). Theorems: `C21_quad_refresh`, `C21_hex_refresh_partial`, `C21_hex_violated`.
* **C22** A well-formed 2D mesh is built without error and every interpolator is filed in every bin its cell touches (proved) — Mesh construction as folds; uses C11 and monotonicity of the bin index; existence of the mesh and of the fields. Theorems: `C22_build_2d`, `C22_load_2d`.
* **C23** 2D field evaluation is the bilinear interpolant of the containing cell (proved) — First-in-range search lemma + C18 + the sum over a bin collapses to the four corners of one cell. Theorems: `C23_bilinear`.
* **C24** 2D field interpolates the nodal data (proved) — C23 + C14; requires that the mesh is conforming (a hanging node is not interpolated). Theorems: `C24_nodal`.
* **C25** 2D field reproduces affine and bilinear data (proved) — C23 + the bilinear identity. Theorems: `C25_reproduces_bilinear`.
* **C26** 2D field stays within the nodal data range (proved) — C23 + C17 + C15. Theorems: `C26_bounds`.
* **C27** 2D field is single-valued across shared edges (proved) — Traces of the bilinear form on an edge; the order of the cells in the file does not matter. Theorems: `C27_single_valued`, `C27_cell_order`.
* **C28** 3D field evaluation is the trilinear interpolant of the containing cell (partial) — Like C23 when no cell above or below comes within a bin of the point; counterexample otherwise. Theorems: `C28_trilinear_partial`, `C28_one_layer_partial`, `C28_3d_violated`.
* **C29** Evaluation at a point outside every cell does not depend on earlier calls (partial) — Exact state of the buffers, by induction over the history; counterexample with values of an earlier call, and the general form of it for every mesh. Theorems: `C29_fresh_zero_partial`, `C29_fresh_zero_3d_partial`, `C29_stale_violated`, `C29_repeats_2d_violated`, `C29_repeats_3d_violated`.
* **C30** Evaluation outside the binned region throws and leaves the stored value (proved) — C09 + frame of the state. Theorems: `C30_throws_2d`, `C30_throws_3d`.
* **C31** Field evaluation is memory-safe (proved) — Invariant: buffers as long as the fullest bin (C13); induction over histories of calls. Theorems: `C31_safe_2d`, `C31_safe_3d`, `C31_load_3d`.
* **C32** 2D field gradient and Hessian are derivatives of the interpolant (proved) — Like C23 for the gradient and Hessian loops, + C16; `HasDerivAt` of the field itself inside a cell. Theorems: `C32_derivatives`, `C32_field_derivative`.
* **C33** Field getters return the last evaluation (proved) — State machine over histories. Theorems: `C33_getters_2d`, `C33_getters_3d`.
* **C34** Mesh min/max are the bounding box of the points (proved) — Lemmas on insertion sort and removal of duplicates. Theorems: `C34_min_max`.
* **C35** Reading a written vtk file recovers points, cells and fields (proved) — Character-level reader (Model/Stream, Model/Vtk) against an independent grammar (Spec/Vtk): reading any conforming text is `load` of its data. Theorems: `C35_read_into`, `C35_read_is_load`, `C35_read_2d`, `C35_read_3d`.
* **C36** Reading a vtk file terminates (partial) — `while` loops with fuel; non-termination for every fuel; converse by an invariant on the stream state. Theorems: `C36_missing_file_violated`, `C36_bad_number_violated`, `C36_terminates_partial`.
* **C37** find_scalar_field finds the first field of that name or throws (proved) — List search lemma. Theorems: `C37_find`.
* **C38** Function handles are values: copies are independent (proved) — Heap model of owning raw pointers; refinement to variables holding values, over histories. Theorems: `C38_handles_are_values`, `C38_independent`.
* **C39** No double free, no leak, no use after free (proved) — Ownership invariant by induction over histories. Theorems: `C39_no_memory_error`, `C39_set_null_exits`, `C39_no_leak`, `C39_all_freed`.
* **C40** Self-assignment and assignment from an empty handle are safe (partial) — Undefined behaviour in all cases; assignment of distinct non-empty handles proved. Theorems: `C40_self_assign_violated`, `C40_empty_assign_violated`, `C40_assign_partial`.
* **C41** Simple function getter returns the last evaluation (proved) — State machine. Theorems: `C41_getter`, `C41_uninitialised`.
* **C42** Flexible function accepts exactly consistent derivative tables (proved) — iff for `check()`. Theorems: `C42_accepts_iff`, `C42_components`, `C42_default`.
* **C43** Function getters return the last evaluation of that component (proved) — State machine over histories. Theorems: `C43_getters`.
* **C44** Undefined members throw instead of returning garbage (proved) — Default members of the base classes. Theorems: `C44_undefined_throws`, `C44_plain`, `C44_simple_undefined`, `C44_through_handle`, `C44_piece_without_text`, `C44_condition_without_text`.
* **C45** Basis set evaluation fills every term (proved) — Loop lemmas over the terms. Theorems: `C45_eval_all`, `C45_eval_term`, `C45_undefined`.
* **C46** Series value is the tensor-product sum (proved) — Nested loops over linear indices = recursive sum over tensor indices (C01), after any history. Theorems: `C46_value`, `C46_coefficients_kept`.
* **C47** Series gradient via eval_grad is the derivative (proved) — Same; `HasDerivAt` of the specification's sum. Theorems: `C47_gradient`, `C47_is_derivative`.
* **C48** Series Hessian via eval_hess is the second derivative and symmetric (proved) — Same, second derivatives, symmetry. Theorems: `C48_hessian`, `C48_is_derivative`.
* **C49** Single-shot series.grad(x,di) / hess(x,di,dj) are the derivatives at x (partial) — The stale and out-of-bounds behaviour as counterexamples; correct in the described case. The general form is by the invariant that the stored values are those of the last full evaluation, over any number of single-shot calls. Theorems: `C49_single_shot_partial`, `C49_stale_violated`, `C49_out_of_bounds_violated`, `C49_grad_exact_partial`, `C49_hess_exact_partial`.
* **C50** A series used through PFunction provides derivatives (partial) — Virtual dispatch as a record of overridden members; false for every series. Theorems: `C50_through_PFunction_violated`, `C50_value_partial`, `C50_eval_derivatives_partial`.
* **C51** Tensor basis evaluation is the product of factors (proved) — Fold product lemma; getters and printing. Theorems: `C51_products`, `C51_product_getters`, `C51_single`, `C51_eval_one`, `C51_print`.
* **C52** set() shapes the coefficients and zeroes them (proved) — C06 + fold. Theorems: `C52_set`, `C52_clear`.
* **C53** Coefficient text round trip (proved) — Token stream round trip; behaviour on truncated text. Theorems: `C53_round_trip`, `C53_truncated`.
* **C54** Series is linear in its coefficients (proved) — From C46. Theorems: `C54_linear`.
* **C55** The first piece containing the point is the one evaluated (proved) — List search lemma; forwarding of every member. Theorems: `C55_first_piece`, `C55_forwards`.
* **C56** Outside every piece evaluation throws domain_error and keeps the current piece (proved) — Same, with the state kept. Theorems: `C56_empty_condition`, `C56_outside`, `C56_inside`, `C56_condition_throws`.
* **C57** Piecewise getters refer to the piece of the last evaluation (proved) — State machine. Theorems: `C57_getters`, `C57_last`.
* **C58** Piecewise simple functions agree with the piecewise function (proved) — First-match lemma on both sides. Theorems: `C58_simple_agrees`, `C58_in_piece`.
* **C59** Printed piecewise forms list every piece and condition in the requested notation (partial) — Strings built by the loops against an intercalated specification; counterexamples for `latex`. Theorems: `C59_piece_as_function`, `C59_list_as_function`, `C59_piece_text`, `C59_list_text`, `C59_latex_piece_partial`, `C59_latex_list_partial`, `C59_latex_violated`, `C59_latex_empty_violated`.
* **C60** Library collection tables stay rectangular and duplicate-free (proved) — Invariant of the collection over all lists of lines and files. Theorems: `C60_collect`, `C60_tables`, `C60_includes`, `C60_distinct`.
* **C61** Every checkout function declared in the header is defined in the source and vice versa (proved) — Same generator predicate on both sides. Theorems: `C61_header_eq_source`.
* **C62** checkout(name) yields the class of that name or throws (proved) — If-chain lookup over the generated functions. Theorems: `C62_checkout`, `C62_complete`.
* **C63** Only user headers are scanned (proved) — String suffix predicates. Theorems: `C63_header_filter`.
* **C64** Monomial basis set is x^i with its derivatives (proved) — Expressions taken verbatim from the header (tools/gen_testlib.py), read by an expression reader (Spec/Expr), and proved equal to x^i and its derivatives for every number. Theorems: `C64_monomials`, `C64_derivatives`, `C64_basis_function`.
* **C65** Chebyshev basis set is T_i with its derivatives (proved) — Same, against Mathlib's Chebyshev polynomials; cos(i θ). Theorems: `C65_chebyshev`, `C65_cos`, `C65_derivatives`, `C65_basis_function`.
* **C66** Example functions' derivatives are correct (proved) — Same; `HasDerivAt`; copies and assignments. Theorems: `C66_quadratic`, `C66_myfunc`, `C66_quadratic_derivatives`, `C66_myfunc_derivatives`, `C66_copy_assign`, `C66_names`, `C66_part_names`.
* **C67** Basis set resize keeps evaluated terms (proved) — State of the basis set object; copies and assignments; it is a basis set in the sense of C45. Theorems: `C67_resize`, `C67_copy_assign`, `C67_is_basis_set`.
* **C68** resize keeps the common prefix of the values (proved) — List lemma on `std::vector::resize`. Theorems: `C68_resize_values`.
* **C69** A failed resize leaves a consistent array (partial) — Counterexample to the invariant after a failed resize; what still holds. Theorems: `C69_resize_exception_safety_violated`, `C69_failed_resize_keeps_values_partial`.
* **C70** 3D field reproduces trilinear data (proved) — Algebra on top of the one-layer evaluation of C28. Theorems: `C70_reproduces_trilinear`.
* **C71** Inserting into a bin always ends (proved) — Measure: the odometer's digits in a base exceeding the volume; no hypothesis on the corners. Theorems: `C71_insertion_terminates`.
* **C72** Managing a PFlexFunction works (partial) — Counterexamples for every function (exit, undefined, lost derivatives); copying a function without derivatives. Theorems: `C72_clear_violated`, `C72_assign_violated`, `C72_copy_violated`, `C72_copy_partial`.
* **C73** A series used as a function reports its variables (partial) — False for every series. Theorems: `C73_series_metadata_violated`.
* **C74** A piecewise function reports the variables of its pieces (partial) — False for every list of pieces; a single piece proved. Theorems: `C74_violated`, `C74_piece_partial`.
* **C75** Every checkout function is written once (partial) — Counterexample; proved when the type lists have no repetition. Theorems: `C75_signatures_once_violated`, `C75_signatures_once_partial`.
* **C76** A class declaration is recognised, with its name and types (partial) — Model of the one regular expression, backtracking included; the recognised language characterised. Theorems: `C76_declaration_violated`, `C76_declaration_partial`, `C76_blanks_partial`, `C76_sound`.
* **C77** What the shipped functions print is what they compute (proved) — Expression readers for csrc, sym and latex; each text is read and proved equal to the computed function. Theorems: `C77_monomial_texts`, `C77_chebyshev_texts`, `C77_function_texts`, `C77_piecewise_texts`.
* **C78** The shipped piecewise function is the function it describes (proved) — `pow` and `sqrt` over the reals; partition of the plane, values, derivatives by `HasDerivAt` in the interiors. Theorems: `C78_partition`, `C78_values`, `C78_names`, `C78_piece_names`, `C78_derivatives`.
* **C79** Generated functions copy and assign as values (partial) — Heap model of the generated classes; counterexamples for copy and assignment. Theorems: `C79_copies_partial`, `C79_copy_violated`, `C79_assign_violated`.
* **C80** Objects behind C pointer variables behave as values (proved) — Handles of C38 as client variables; the aliasing case as a theorem. Theorems: `C80_variables_are_values`, `C80_no_leak`, `C80_others_unaffected`, `C80_shared_variable_dangles`.
* **C81** The C interface to functions computes what C++ computes (proved) — Calls through the interface equal calls on the object, over histories. Theorems: `C81_calc`, `C81_get`, `C81_size`.
* **C82** Names pass through the C interface intact (partial) — Buffers as client memory; stored iff there is room. Theorems: `C82_function_names_partial`, `C82_other_names_partial`, `C82_names_violated`.
* **C83** The C interface to series computes the series (proved) — Simulation between the C-level series and the model of C46-C52, over histories, with basis sets checked out of any library. Theorems: `C83_set`, `C83_values`, `C83_coefficients`, `C83_single_basis`, `C83_tensor_basis`.
* **C84** The Python classes compute what C++ computes (partial) — Python methods as calls of C functions by name with the given arguments; counterexamples for the wrong ones. Theorems: `C84_series_basis_partial`, `C84_basis_partial`, `C84_function_partial`, `C84_get_derivatives_violated`, `C84_names_violated`, `C84_simple_partial`, `C84_series_partial`, `C84_series_set_partial`, `C84_series_methods_violated`.
* **C85** Coefficients pass between C++ and Python through text files (proved) — Character level: the two writers and readers. Theorems: `C85_same_text`, `C85_python_reads`, `C85_cpp_reads`, `C85_truncated`.
* **C86** The C interface to basis sets and simple functions computes what C++ computes (partial) — Simulation, as C83, for basis sets and simple functions. Theorems: `C86_simple`, `C86_checkout`, `C86_basis`, `C86_resize`, `C86_max_size_partial`, `C86_max_size_violated`.
* **C87** Basis sets and series behind C pointers are independent values (proved) — Two-sorted variables; a series copies its basis sets. Theorems: `C87_variables_are_values`, `C87_series_keep_their_basis_sets`.
* **C88** Bodies and fields behind C pointers are independent values (partial) — Two-sorted variables: bodies, and fields as views or clones. Theorems: `C88_variables_partial`, `C88_delete_body_violated`, `C88_delete_view_partial`.
* **C89** The C interface to fields computes the fields of the files (proved) — Composition of C35, C23/C28, C33 and C88, for every legal history. Theorems: `C89_fields_2d`, `C89_fields_3d`, `C89_bilinear_2d`.
* **C90** A body can read more than one file (partial) — Exact state after the second file; evaluation doubled at every point of every mesh; further counterexamples. Theorems: `C90_appends_partial`, `C90_same_file_violated`, `C90_same_file_3d_violated`, `C90_old_field_violated`, `C90_other_file_violated`.
* **C91** A coordinate stores and prints its components (proved) — List update lemma; token stream round trip. Theorems: `C91_components`, `C91_print`.
* **C92** Python bodies and fields compute the fields of the files (partial) — Python programs are translated to the C calls they make; C89 applies; the broken methods are proved broken for every program. Theorems: `C92_fields_2d_partial`, `C92_fields_3d_partial`, `C92_methods_2d_violated`, `C92_methods_3d_violated`.
* **C93** Bins work in floating-point arithmetic (partial) — The bin model is restated with every operation on doubles rounded by an abstract monotone rounding (IEEE nearest-even is proved to be one); C08-C13 are redone for the computed bins; concrete binary64 counterexample. Theorems: `C93_contents_history_partial`, `C93_out_of_range_rejected`, `C93_box_found`, `C93_interior_in_grid`, `C93_below_max_violated`.
* **C94** Field values are right in floating-point arithmetic (proved) — The 2D field model is restated with every operation rounded; bins, quads, sums and products are bounded step by step (standard error analysis), composed with the field invariants for every history. Theorems: `C94_loads`, `C94_value_error`, `C94_value_conforming`, `C94_outside`.
* **C95** Nodal values are exact in floating-point arithmetic (proved) — At a corner the computed weights are exactly 0 and 1 and the sum adds zeros. Theorems: `C95_nodal_exact`.
* **C96** Field derivatives are right in floating-point arithmetic (partial) — As C94; concrete binary64 counterexample on a cell edge. Theorems: `C96_grad_error_partial`, `C96_hess_error_partial`, `C96_grad_violated`, `C96_hess_violated`.
* **C97** A field is a PFunction (proved) — The overridden members of PFuncBase (with double* points) are related to the field model; the invariants of C22-C37 are carried through any history of virtual calls. Theorems: `C97_field_function_2d`, `C97_field_function_3d`.
* **C98** A Python object is one C++ object, under all its names, until it is deleted (partial) — Objects are the pointer variables of C80/C87, created NULL and set by the C function; variables name objects. Every legal program is related, statement by statement, to one over values. Theorems: `C98_objects_are_values_partial`, `C98_no_leak_partial`, `C98_unnamed_objects_stay_violated`, `C98_deleted_object_partial`, `C98_not_found_violated`, `C98_series_are_values_partial`, `C98_deleted_basis_partial`.
* **C99** The generated library is C++ text that declares what it defines and constructs what was asked for (proved) — The full text of both files is modelled line by line; a reader for this fragment of C++ (lines, literals, expressions, execution of a function body) is the specification. Proved: the reader accepts the text and the functions read behave as specified; the reading is unique. Theorems: `C99_files`, `C99_reading_unique`.
* **C100** A run of lw writes the library and nothing else (partial) — main over directories with any listing order at each reading; files are replaced by opening them. C60-C63 and C99 are lifted to runs by permutation invariance of what is declared. Theorems: `C100_run_partial`, `C100_commands_partial`, `C100_compile_partial`, `C100_missing_location_violated`, `C100_duplicate_violated`, `C100_missing_directory_violated`, `C100_missing_directory_partial`, `C100_options_partial`.
* **C101** The generated source includes the headers of the classes it constructs (partial) — Lookup of includes in the location and the -I directories; counterexample with two headers of one name. Theorems: `C101_includes_partial`, `C101_includes_violated`.
* **C102** Series are right in floating-point arithmetic (proved) — Second model of the series in which the result of every * and + on doubles is rounded, related to the exact model (equal when rounding is the identity). Induction over the factor and coefficient loops with relative errors. Theorems: `C102_value`, `C102_gradient`, `C102_hessian`, `C102_bound`, `C102_products`, `C102_product_getters`.
* **C103** Element functions are functions of (r, n, h, s) and values (partial) — The objects as functions with component objects; every history keeps a representation by stored components (C43). Copies and assignment over a heap as in C79; `HasDerivAt` for the specification's derivatives in any dimension. Theorems: `C103_quad`, `C103_hex_partial`, `C103_hex_violated`, `C103_directions_violated`, `C103_derivatives`, `C103_copies_partial`, `C103_assign_violated`.
* **C104** A vtk file that ends early is not taken for a complete one (partial) — Uses the text-level model of C35/C36. A file is split into its frame and the fields; induction over the fields, and over the values left. For the absence of fields: every step of the stream leaves a suffix of the text, and a field needs a line that starts with SCALARS. Theorems: `C104_short_file_violated`, `C104_no_field_partial`, `C104_short_2d_violated`.
* **C105** A vtk file whose parts do not fit together is rejected (partial) — Uses the text-level model of C35 split into frame and fields (C104), the mesh invariants of C22-C34 for the legal parts, and error propagation through the loops over types, cells and values. The misfits of geometry are witnesses on concrete files. Theorems: `C105_node_number_violated`, `C105_cell_type_2d_partial`, `C105_cell_type_3d_partial`, `C105_few_values_2d_violated`, `C105_few_values_3d_violated`, `C105_sheared_violated`, `C105_orientation_violated`, `C105_count_violated`.
* **C106** A Bin reports its limits, and a cleared Bin is an empty one (partial) — Model of C08; the limits by the invariant of every history, the cleared state by evaluation for every coordinate. Theorems: `C106_limits`, `C106_clear_partial`, `C106_clear_violated`.
* **C107** 3D field values are right in floating-point arithmetic (partial) — The rounded model of C94 is generic in the dimension and the element class; the hexahedron's weights are bounded as products of three factors; the bin order gives the vertical distance of the cell that is used. Theorems: `C107_loads`, `C107_outside`, `C107_value_error_partial`, `C107_one_layer_partial`, `C107_3d_violated`.
* **C108** 3D nodal values are exact in floating-point arithmetic (partial) — At a corner the three computed factors are exactly 0 or 1; the sum adds zeros. Conformity identifies the node. Witness in binary64. Theorems: `C108_nodal_exact_partial`, `C108_nodal_violated`.
* **C109** 3D field derivatives are right in floating-point arithmetic (partial) — As C107 with two factors and a quotient; the pure second derivatives are returned as the literal 0. Theorems: `C109_grad_error_partial`, `C109_pure_second_zero`, `C109_grad_violated`.
* **C110** Fields are linear in their data (proved) — The generic evaluation lemma: the value is a sum of weights, which depend on the mesh and the point only, times corner data; the same cell is used after every history. Theorems: `C110_linear_2d`, `C110_linear_3d`.
* **C111** 2D fields are continuous (proved) — Over the reals: each cell is closed, the field equals a bilinear polynomial on it (C27), and the body is a finite union of cells. Theorems: `C111_continuous`.
* **C112** 3D fields interpolate the nodal data, stay within its range and are single-valued (partial) — Two trilinear interpolants agreeing at the corners of the common box agree on it; with C28. Witness: three stacked cells. Theorems: `C112_single_valued_partial`, `C112_nodal_partial`, `C112_bounds_partial`, `C112_one_layer_partial`, `C112_3d_violated`.
* **C113** A library writer that is killed harms nothing, and running it again repairs the library (proved) — The disk at every moment of a run (every first part of each written text); frame lemmas for writes; induction on the sequence of killed runs; with C100. Theorems: `C113_last`, `C113_crash`, `C113_crashes`, `C113_rerun`.
* **C114** A library is replaced as a whole (partial) — The exact set of pairs of file contents that occur at some moment of a valid run; the empty text is no header and no source. Theorems: `C114_moments_partial`, `C114_replace_violated`.
* **C115** Several threads can evaluate fields (partial) — Micro-step model: each pass of the index loops is a step; a thread alone refines the sequential model (loop by loop); threads on different bodies by projection, induction on the schedule; on one body, a simulation: another thread in the same bin writes the numbers that are already there. Witness schedule for a shared body. Theorems: `C115_separate_partial`, `C115_shared_violated`, `C115_same_bin_2d_partial`, `C115_same_bin_3d_partial`.
* **C116** Monomials are accurate in floating-point arithmetic (proved) — The texts of `eval`, read as expressions, with rounded operations; induction on expressions: error (1+u)^ops - 1 relative to the expression without signs, monotonicity and parity; the 90 texts are checked for number of roundings, form and parity in the kernel. Theorems: `C116_monomials`, `C116_shape`.
* **C117** Chebyshev polynomials are accurate in floating-point arithmetic (partial) — As C116; the expression without signs is a polynomial with a three-term recurrence, bounded by (5/2)^k. Witness in binary64. Theorems: `C117_chebyshev_partial`, `C117_interval_partial`, `C117_parity_partial`, `C117_bounded_violated`.
* **C118** The shipped functions are accurate in floating-point arithmetic (proved) — As C116, for the texts of Quadratic and MyFunc, through C42. Theorems: `C118_quadratic`, `C118_myfunc`.
* **C119** Polynomials as series over the shipped monomials are accurate in floating-point arithmetic (proved) — C116 gives the errors of the basis functions, C102 those of the series; the bound on a tensor sum by induction on the number of variables. Theorems: `C119_value`, `C119_gradient`, `C119_hessian`.
* **C120** Fields do not depend on the units and the origin of the coordinates (proved) — The whole computation (reading, binning, search, weights, sums) commutes with the change of coordinates: function-by-function naturality lemmas over the model, no hypothesis on the input; with history independence (C29, C31) for mixed histories. Theorems: `C120_load_2d`, `C120_load_3d`, `C120_fields_2d`, `C120_fields_3d`, `C120_history_2d`, `C120_history_3d`.
* **C121** Fields do not depend on the numbering of the nodes (proved) — From C23 and C27: a covered point lies in a cell of each mesh with the same box and corner values; a renumbered mesh is shown legal and conforming. Theorems: `C121_geometry_only`, `C121_renumber`.
* **C122** With a lock around each evaluation, threads can share a body (proved) — Micro-step model of C115; invariant: on each body at most one evaluation is under way, it will end as in the sequential model, and the body is the result of the evaluations completed before; results from history independence. Theorems: `C122_locked_2d`, `C122_locked_3d`.
* **C123** Every coordinate is answered or refused, infinities and NaN included (partial) — Model with infinities and NaN (`Model/Special.lean`); the bin lookup is shown equal to that of the exact model at finite coordinates, to refuse infinities, and to reach the undefined conversion for NaN, from the bin invariants. Theorems: `C123_finite`, `C123_refused_2d`, `C123_refused_3d`, `C123_nan_violated_2d`, `C123_nan_violated_3d`.
* **C124** The shipped piecewise function on all doubles (proved) — Model of the shipped classes over any machine arithmetic (`Model/SpecialPiecewise.lean`); the three regions as truth values of the computed comparisons; with IEEE special values by cases, error bounds from `Rounding`; over the reals the objects are those of C78. Theorems: `C124_defined`, `C124_nan`, `C124_left`, `C124_disc`, `C124_real`, `C124_outside`.
* **C125** Coefficients written as text are the coefficients read (partial) — Model of the standard library's text of doubles (`Model/NumText.lean`: `%.Pg` and `num_get`/`strtod`, correctly rounded); the printed text denotes the nearest P-digit decimal (`Spec/Decimal.lean`); with 2^p < 10^(P-1) rounding to p bits gives the number back; then C53. Theorems: `C125_number`, `C125_enough_digits_partial`, `C125_restored_partial`, `C125_any_precision`, `C125_tokens_partial`, `C125_default_precision_violated`.
* **C126** From the text of a vtk file to the values computed in doubles (proved) — The text reader of `Model/Vtk.lean`, parametrised by the arithmetic of the mesh (`MeshOps`), with the decimal conversion of `Model/NumText.lean` and the rounded mesh of `Model/Rounded.lean` (`Model/RoundedVtk.lean`). The file read with rounding is a well-formed file of the rounded numbers; rounding keeps rectangles, conformity and resolution; the interpolant of the rounded data is within (8k+1)uM of that of the file; then C94 and C107. Theorems: `C126_read_is_load`, `C126_file_2d`, `C126_file_3d`.
* **C127** Fields on doubles with their exponent range (proved) — Magnitude and grid of every intermediate result, function by function (`Lemmas/Binary64*.lean`): differences of multiples of 2^-g are 0 or at least 2^-g; 1 - l for a double l is 0 or at least 2^-53; sums of terms up to 2^X saturate at 2^(X+54). So a rounding that is correct on normal doubles agrees with `nearestEven 53` everywhere it is applied; then C94, C95, C107, C126. Theorems: `C127_same_2d`, `C127_same_3d`, `C127_value_2d`, `C127_nodal_2d`, `C127_value_3d`, `C127_file_2d`, `C127_file_3d`.
* **C128** Numbers in files may be in any decimal notation (proved) — Numerals as structures with a text and a value (`Spec/Numeral.lean`); the scanner of `Model/NumText.lean` accepts exactly their texts (both directions by cases on sign, digits, point, exponent); then C126. Theorems: `C128_numeral`, `C128_taken`, `C128_malformed`, `C128_printed`, `C128_same_body`.
* **C129** A field filled from a smooth function is close to it everywhere (proved) — Smooth functions by partial derivatives (`Spec/Smooth.lean`); the classical error bound of linear interpolation (mean value theorem, Taylor) applied direction by direction gives the bilinear and trilinear bounds, with extrapolation in direction 2 for the wrong-layer case of C28; then C23, C28, C94 and `hex_eval`. Theorems: `C129_value_2d`, `C129_gradient_2d`, `C129_value_3d`, `C129_value_3d_clear`, `C129_gradient_3d`, `C129_continuous_2d`, `C129_continuous_3d`, `C129_doubles_2d`, `C129_doubles_3d`.
* **C130** The numbers of the nodes do not matter, in any arithmetic (proved) — A relation between a body and its renumbered counterpart (same grid, nodes and data related by the permutation, element lists equal up to node numbers) preserved by every function of reading and evaluation (`Lemmas/Rename.lean`), for an arbitrary rounding; the exact statement is the case of no rounding. The 3D geometry statement from C28 and C112. Theorems: `C130_doubles_2d`, `C130_doubles_3d`, `C130_exact_2d`, `C130_exact_3d`, `C130_geometry_only_3d`.
* **C131** Factors, order and signs of the data survive rounding (partial) — Factors that rounding does not notice (`Spec/Scale.lean`; powers of two and their negatives for IEEE rounding, `Lemmas/RoundingScale.lean`); a map from bodies to bodies with scaled data that commutes with every function of reading and evaluation (`Lemmas/ScaleData.lean`). Order and signs: the weights of corner values are not negative, rounding is monotone, and results do not depend on histories (`Fl.eval_free`). Theorems: `C131_factors`, `C131_factor_2d`, `C131_factor_3d`, `C131_order_2d`, `C131_order_3d_partial`, `C131_range_2d`, `C131_sign_3d_partial`, `C131_sign_3d_violated`.
* **C132** Units of the coordinates that are powers of two survive rounding (proved) — A map from bodies to bodies in other units that commutes with every function of reading and evaluation, for an arbitrary rounding that respects the factors (`Lemmas/RoundedMove.lean`); then `Fl.eval_free` for histories. Theorems: `C132_any_history_2d`, `C132_any_history_3d`, `C132_units_2d`, `C132_units_3d`, `C132_history_2d`, `C132_history_3d`, `C132_needs_powers`.
* **C133** What an evaluation remembers of earlier ones (proved) — Two bodies that differ only in what earlier evaluations left behind are related (`Lemmas/RoundedAny.lean`); every evaluation at a position with an element overwrites what it uses, so related bodies give the same outcome; at the other positions the body as read has nothing but zeros. For an arbitrary rounding. Theorems: `C133_dichotomy_2d`, `C133_dichotomy_3d`, `C133_once_always_2d`, `C133_once_always_3d`, `C133_body_kept`.
* **C134** Series and shipped functions on doubles with their exponent range (proved) — Magnitudes of all intermediate results (`Lemmas/Binary64Series.lean`): products of basis functions are 0 or between 2^-dB and 2^dB, a sum of doubles that are 0 or at least 2^-g is a multiple of 2^-(g+53), so 0 or not too small, and sums of terms up to 2^X saturate at 2^(X+54); so a rounding that is correct in the normal range is `nearestEven 53` throughout. For the shipped functions the magnitudes are computed from the syntax trees of their C++ expressions; C102, C116, C118, C119 do the rest. Examples on doubles with gradual underflow; at 2^-600 the square underflows. Theorems: `C134_same`, `C134_value`, `C134_gradient`, `C134_hessian`, `C134_monomials`, `C134_polynomial_value`, `C134_polynomial_gradient`, `C134_polynomial_hessian`, `C134_quadratic`, `C134_myfunc`.
* **C135** Insertion and reading end in floating-point arithmetic (partial) — As C71 and C36: indices of coordinates in the range of a bin are not negative because rounding keeps the order (with a negative width the range has one point at most), so `add_range` counts upwards and ends (`Lemmas/RoundedTerm.lean`); the loops of the reader use up the text. Doubles with gradual underflow keep the order (`Lemmas/Binary64Order.lean`). Theorems: `C135_insertion`, `C135_missing_file_violated`, `C135_reading_partial`, `C135_roundings`.
* **C136** Several threads can evaluate series (partial) — An evaluation is a program of reads and writes of the numbers evaluations store (`Model/ThreadsSeries.lean`), built from what no evaluation changes; run undisturbed it is the evaluation of the sequential model (`Lemmas/ThreadsSeries.lean`), so C46-C48 give its result. Invariant over schedules: the series of an idle thread is well formed, the evaluation under way would end with the right result if undisturbed. The number of steps is bounded whatever is read. A schedule that makes the result wrong without locks is a witness. Theorems: `C136_locked_partial`, `C136_separate_partial`, `C136_progress`, `C136_shared_violated`.
* **C137** Basis functions that throw do no harm to a series (proved) — The programs of C136 with basis functions that return a number or an exception (`Model/SeriesThrow.lean`); the state at the exception is what was written before it. Where nothing throws the program is that of C136; where something throws only stored values of basis functions have been written, and the next evaluation writes all it reads. Theorems: `C137_value`, `C137_exception`.
* **C138** A mesh of rectangles of any size is read (partial) — `read_vtk` makes the bins before the cells; the product in `calc_volume` overflows for every order of its (positive) factors when the whole product does not fit an `int`. With C22 (meshes whose bins fit are built) this gives an equivalence. The witness is a family of meshes, one for each n >= 46340. Theorems: `C138_size_violated`, `C138_exactly_2d_partial`, `C138_exactly_3d_partial`, `C138_diagonal_violated`, `C138_any_arithmetic_violated`, `C138_float_2d_partial`, `C138_float_3d_partial`.
* **C139** Where cells meet, the cell listed first in the file answers (proved) — The interpolators are made in the order of the cells, filing them into bins keeps the order, so `is_in_range` is first true for an interpolator of the first cell that contains the point (invariant `Interps.sorted`, `Built.none_before` in `Lemmas/Field.lean`). Slopes are stated as difference quotients of the interpolant, the same for every step. Theorems: `C139_first_cell_2d`, `C139_first_cell_3d`, `C139_first_cell_3d_clear`.
* **C140** Turned, mirrored and stretched bodies (proved) — With C139: a cell contains a point iff in each direction it has a node before and a node beyond it, which does not depend on the order of the nodes; interpolants are affine along each axis, and such functions are determined by their values at the nodes (`Lemmas/Turn.lean`). Theorems: `C140_turned_2d`, `C140_turned_3d`.
* **C141** Sums of Chebyshev polynomials as series are accurate in floating-point arithmetic (proved) — The generated texts are sums of products: their errors relative to the expression without signs (C117), widened by the errors of the series (C102); an induction over the variables bounds the tensor sums (`tensorSum_gap`). With an exponent range: products of moderate numbers are moderate, and sums of doubles of moderate size are multiples of a power of two, so they are 0 or not too small (`Lemmas/Binary64Cheb.lean`). Theorems: `C141_doubles_terms`, `C141_doubles_value`, `C141_doubles_gradient`, `C141_doubles_hessian`, `C141_value`, `C141_gradient`, `C141_hessian`, `C141_interval`.
* **C142** Several threads can evaluate functions (partial) — An evaluation is a program of reads and writes of the numbers stored in the component functions (`Model/ThreadsFunc.lean`). Invariant over schedules, for one thread: the numbers its evaluation has written and will still read are in the function, and nobody else writes other numbers there; the other threads write only values of components at their own points. The number of steps is bounded whatever is read. A schedule that makes a result wrong without locks is a witness. Theorems: `C142_locked_partial`, `C142_shared_partial`, `C142_separate_partial`, `C142_progress`, `C142_alone`, `C142_shared_violated`.
* **C143** Several threads can evaluate piecewise functions (partial) — As C142, for the values of conditions, expressions, pieces and functions (`Model/ThreadsPiecewise.lean`), over a general model of threads that share stored numbers (`Model/Conc.lean`): an evaluation reads only what it wrote itself, so a schedule does harm only if another thread writes another number into the same place in between. Theorems: `C143_locked_partial`, `C143_shared_partial`, `C143_separate_partial`, `C143_progress`, `C143_alone`, `C143_shared_violated`.
* **C144** Bodies can be copied and assigned (partial) — Memory: a field of a body is kept with the address of the body whose mesh it points to (`Model/BodyCopy.lean`); values: every variable has a body of its own (`Spec/BodyCopy.lean`). Simulation over histories: the mesh a field points to is the mesh of the value but for scratch indices, which no evaluation depends on (`Lemmas/BodyCopy.lean`). Witnesses for assignment to, reading into, and destruction of the source. Theorems: `C144_copies_partial`, `C144_values`, `C144_getters`, `C144_destroy_violated`, `C144_assign_violated`, `C144_read_violated`.
* **C145** 3D field Hessian is the second derivative of the interpolant (partial) — The sum over the corners of the first cell that reaches the point (as C139) compared with mixed difference quotients of the trilinear interpolant. Theorems: `C145_repeated_partial`, `C145_mixed_partial`, `C145_twice_violated`, `C145_xyz_violated`.
* **C146** 3D fields are continuous (partial) — The values are those of the first cell that reaches the point (C139); on the points where this cell contains the point they are trilinear interpolants that agree on shared faces, glued over finitely many closed boxes. Witness: two stacked cubes. Theorems: `C146_clear_partial`, `C146_one_layer_partial`, `C146_jump_violated`.
* **C147** lw --compile calls the compiler on the files it wrote and runs nothing else (partial) — The command lines of C100 split into commands and words by a small specification of the shell (`Spec/Shell.lean`: blanks and semicolons; no quotes, expansions or redirections, lines with those are not judged). Witnesses: blank in the location, semicolon in a directory name. Theorems: `C147_argv_partial`, `C147_blank_violated`, `C147_semicolon_violated`.
* **C148** Data are felt only in the cells around their node (partial) — The cell that answers depends on mesh and point alone (C139; in floating-point arithmetic the cell found by the lemmas of C94 and C107); the result depends on the data at its corners alone. Witness: two stacked cubes. Theorems: `C148_local_2d`, `C148_bound_2d`, `C148_local_3d_partial`, `C148_clear_3d_partial`, `C148_rounded_2d`, `C148_rounded_3d_partial`, `C148_stacked_violated`.
* **C149** Refining a mesh does not change a field (partial) — At a point of both bodies the cells that answer are one inside the other (C23, C139, faces shared: conforming); a bilinear (trilinear) function is determined by its values at the corners of any cell inside, so the two interpolants are one function. Witness: two stacked cubes, one cut. Theorems: `C149_value_2d`, `C149_derivatives_2d`, `C149_value_3d_partial`, `C149_gradient_3d_partial`, `C149_stacked_violated`.
* **C150** Lists of pieces that describe the same function give the same function (proved) — One evaluation is that of the first definition that applies (C55, C56), getters refer to the definition that applied last (C57); these depend only on the set of definitions when those that apply agree (do not overlap). No bound on the number of pieces or conditions. Theorems: `C150_order`, `C150_in_piece`, `C150_simple`, `C150_shadowed`, `C150_getters`, `C150_conditions`.
* **C151** Series with their variables in another order, and over longer basis sets (proved) — The tensor sums of C46-C48 written as sums over all tuples of indices (`Lemmas/TensorFlat.lean`), reindexed by the permutation; the added terms of a longer sum are 0. Theorems: `C151_permuted`, `C151_longer`.
* **C152** The order of the cells does not matter (partial) — At a point of the body both answer from a cell that contains it, the first in their own list (C23, C139); on a conforming mesh all such cells have the same interpolant there (C27), and inside a cell there is one only. Witness: two stacked cubes in both orders. Theorems: `C152_value_2d`, `C152_one_cell_2d`, `C152_value_3d_partial`, `C152_one_cell_3d_partial`, `C152_outside_2d`, `C152_stacked_violated`, `C152_rounded_2d`, `C152_rounded_3d_partial`.
* **C153** A library depends only on the classes declared (proved) — The texts written are read back as in C99; their functions are determined by the set of (class, input type, output type) declared, their order by the order of the tables. The scan of C60 depends only on the list of declarations. Theorems: `C153_accepted`, `C153_same_classes`, `C153_reordered`, `C153_other_text`, `C153_same_files`, `C153_only_declarations`.
* **C154** Piecewise functions can be nested (proved) — Trees of branches (`Props/PieceNest.lean`), the objects made from them, and the list of paths to their leaves; mutual induction on the tree. Theorems: `C154_built`, `C154_nested`, `C154_flat`, `C154_uncovered`.
