C01 Index maps as the loops over the unroll list; induction on the extents list against a product specification.
C02 Same induction in the other direction; injectivity as a corollary.
C03 Equality with a Horner row-major recursion, and lexicographic order iff.
C04 List update lemma and injectivity (C02).
C05 Case split on equality of the volumes; frame of the value list.
C06 Run function over a list of calls (exceptions caught); invariant by induction.
C07 Safety under positive extents with volume in `int`; theorems for the two undefined cases, and that positive extents are exactly what is needed.
C08 Refinement of the bin to a function from index tuples to lists, over any list of calls.
C09 Loop lemma on the range check; frame of the stored items.
C10 Floor inequality for c < max; the code is wrong at c = max: one dimension (undefined, for every grid), two dimensions (another bin).
C11 The odometer enumerates exactly the box (rank function, induction on the dimension); every bin has a coordinate.
C12 List lemma lifted by C08's refinement.
C13 Fold-max lemma over all bins.
C14 Field algebra per corner, against the corner positions of `Spec/Cell`.
C15 Field algebra: sum of the shape functions of a cell.
C16 `HasDerivAt` over the reals; the Hexahedron Hessian compared with the true derivative at every point.
C17 Ordered-field argument per factor.
C18 Interval case split per direction, iff.
C19 Iff for what the code tests (two directions), and a counterexample in the third.
C20 Field algebra per corner.
C21 State of the element function objects as stored components; all components refreshed (quad), counterexample (hexahedron).
C22 Mesh construction as folds; uses C11 and monotonicity of the bin index; existence of the mesh and of the fields.
C23 First-in-range search lemma + C18 + the sum over a bin collapses to the four corners of one cell.
C24 C23 + C14; requires that the mesh is conforming (a hanging node is not interpolated).
C25 C23 + the bilinear identity.
C26 C23 + C17 + C15.
C27 Traces of the bilinear form on an edge; the order of the cells in the file does not matter.
C28 Like C23 when no cell above or below comes within a bin of the point; counterexample otherwise.
C29 Exact state of the buffers, by induction over the history; counterexample with values of an earlier call, and the general form of it for every mesh.
C30 C09 + frame of the state.
C31 Invariant: buffers as long as the fullest bin (C13); induction over histories of calls.
C32 Like C23 for the gradient and Hessian loops, + C16; `HasDerivAt` of the field itself inside a cell.
C33 State machine over histories.
C34 Lemmas on insertion sort and removal of duplicates.
C35 Character-level reader (Model/Stream, Model/Vtk) against an independent grammar (Spec/Vtk): reading any conforming text is `load` of its data.
C36 `while` loops with fuel; non-termination for every fuel; converse by an invariant on the stream state.
C37 List search lemma.
C38 Heap model of owning raw pointers; refinement to variables holding values, over histories.
C39 Ownership invariant by induction over histories.
C40 Undefined behaviour in all cases; assignment of distinct non-empty handles proved.
C41 State machine.
C42 iff for `check()`.
C43 State machine over histories.
C44 Default members of the base classes.
C45 Loop lemmas over the terms.
C46 Nested loops over linear indices = recursive sum over tensor indices (C01), after any history.
C47 Same; `HasDerivAt` of the specification's sum.
C48 Same, second derivatives, symmetry.
C49 The stale and out-of-bounds behaviour as counterexamples; correct in the described case. The general form is by the invariant that the stored values are those of the last full evaluation, over any number of single-shot calls.
C50 Virtual dispatch as a record of overridden members; false for every series.
C51 Fold product lemma; getters and printing.
C52 C06 + fold.
C53 Token stream round trip; behaviour on truncated text.
C54 From C46.
C55 List search lemma; forwarding of every member.
C56 Same, with the state kept.
C57 State machine.
C58 First-match lemma on both sides.
C59 Strings built by the loops against an intercalated specification; counterexamples for `latex`.
C60 Invariant of the collection over all lists of lines and files.
C61 Same generator predicate on both sides.
C62 If-chain lookup over the generated functions.
C63 String suffix predicates.
C64 Expressions taken verbatim from the header (tools/gen_testlib.py), read by an expression reader (Spec/Expr), and proved equal to x^i and its derivatives for every number.
C65 Same, against Mathlib's Chebyshev polynomials; cos(i θ).
C66 Same; `HasDerivAt`; copies and assignments.
C67 State of the basis set object; copies and assignments; it is a basis set in the sense of C45.
C68 List lemma on `std::vector::resize`.
C69 Counterexample to the invariant after a failed resize; what still holds.
C70 Algebra on top of the one-layer evaluation of C28.
C71 Measure: the odometer's digits in a base exceeding the volume; no hypothesis on the corners.
C72 Counterexamples for every function (exit, undefined, lost derivatives); copying a function without derivatives.
C73 False for every series.
C74 False for every list of pieces; a single piece proved.
C75 Counterexample; proved when the type lists have no repetition.
C76 Model of the one regular expression, backtracking included; the recognised language characterised.
C77 Expression readers for csrc, sym and latex; each text is read and proved equal to the computed function.
C78 `pow` and `sqrt` over the reals; partition of the plane, values, derivatives by `HasDerivAt` in the interiors.
C79 Heap model of the generated classes; counterexamples for copy and assignment.
C80 Handles of C38 as client variables; the aliasing case as a theorem.
C81 Calls through the interface equal calls on the object, over histories.
C82 Buffers as client memory; stored iff there is room.
C83 Simulation between the C-level series and the model of C46-C52, over histories, with basis sets checked out of any library.
C84 Python methods as calls of C functions by name with the given arguments; counterexamples for the wrong ones.
C85 Character level: the two writers and readers.
C86 Simulation, as C83, for basis sets and simple functions.
C87 Two-sorted variables; a series copies its basis sets.
C88 Two-sorted variables: bodies, and fields as views or clones.
C89 Composition of C35, C23/C28, C33 and C88, for every legal history.
C90 Exact state after the second file; evaluation doubled at every point of every mesh; further counterexamples.
C91 List update lemma; token stream round trip.
C92 Python programs are translated to the C calls they make; C89 applies; the broken methods are proved broken for every program.
C93 The bin model is restated with every operation on doubles rounded by an abstract monotone rounding (IEEE nearest-even is proved to be one); C08-C13 are redone for the computed bins; concrete binary64 counterexample.
C94 The 2D field model is restated with every operation rounded; bins, quads, sums and products are bounded step by step (standard error analysis), composed with the field invariants for every history.
C95 At a corner the computed weights are exactly 0 and 1 and the sum adds zeros.
C96 As C94; concrete binary64 counterexample on a cell edge.
C97 The overridden members of PFuncBase (with double* points) are related to the field model; the invariants of C22-C37 are carried through any history of virtual calls.
C98 Objects are the pointer variables of C80/C87, created NULL and set by the C function; variables name objects. Every legal program is related, statement by statement, to one over values.
C99 The full text of both files is modelled line by line; a reader for this fragment of C++ (lines, literals, expressions, execution of a function body) is the specification. Proved: the reader accepts the text and the functions read behave as specified; the reading is unique.
C100 main over directories with any listing order at each reading; files are replaced by opening them. C60-C63 and C99 are lifted to runs by permutation invariance of what is declared.
C101 Lookup of includes in the location and the -I directories; counterexample with two headers of one name.
C102 Second model of the series in which the result of every * and + on doubles is rounded, related to the exact model (equal when rounding is the identity). Induction over the factor and coefficient loops with relative errors.
C103 The objects as functions with component objects; every history keeps a representation by stored components (C43). Copies and assignment over a heap as in C79; `HasDerivAt` for the specification's derivatives in any dimension.
C104 Uses the text-level model of C35/C36. A file is split into its frame and the fields; induction over the fields, and over the values left. For the absence of fields: every step of the stream leaves a suffix of the text, and a field needs a line that starts with SCALARS.
C105 Uses the text-level model of C35 split into frame and fields (C104), the mesh invariants of C22-C34 for the legal parts, and error propagation through the loops over types, cells and values. The misfits of geometry are witnesses on concrete files.
C106 Model of C08; the limits by the invariant of every history, the cleared state by evaluation for every coordinate.
C107 The rounded model of C94 is generic in the dimension and the element class; the hexahedron's weights are bounded as products of three factors; the bin order gives the vertical distance of the cell that is used.
C108 At a corner the three computed factors are exactly 0 or 1; the sum adds zeros. Conformity identifies the node. Witness in binary64.
C109 As C107 with two factors and a quotient; the pure second derivatives are returned as the literal 0.
C110 The generic evaluation lemma: the value is a sum of weights, which depend on the mesh and the point only, times corner data; the same cell is used after every history.
C111 Over the reals: each cell is closed, the field equals a bilinear polynomial on it (C27), and the body is a finite union of cells.
C112 Two trilinear interpolants agreeing at the corners of the common box agree on it; with C28. Witness: three stacked cells.
C113 The disk at every moment of a run (every first part of each written text); frame lemmas for writes; induction on the sequence of killed runs; with C100.
C114 The exact set of pairs of file contents that occur at some moment of a valid run; the empty text is no header and no source.
C115 Micro-step model: each pass of the index loops is a step; a thread alone refines the sequential model (loop by loop); threads on different bodies by projection, induction on the schedule; on one body, a simulation: another thread in the same bin writes the numbers that are already there. Witness schedule for a shared body.
C116 The texts of `eval`, read as expressions, with rounded operations; induction on expressions: error (1+u)^ops - 1 relative to the expression without signs, monotonicity and parity; the 90 texts are checked for number of roundings, form and parity in the kernel.
C117 As C116; the expression without signs is a polynomial with a three-term recurrence, bounded by (5/2)^k. Witness in binary64.
C118 As C116, for the texts of Quadratic and MyFunc, through C42.
C119 C116 gives the errors of the basis functions, C102 those of the series; the bound on a tensor sum by induction on the number of variables.
C120 The whole computation (reading, binning, search, weights, sums) commutes with the change of coordinates: function-by-function naturality lemmas over the model, no hypothesis on the input; with history independence (C29, C31) for mixed histories.
C121 From C23 and C27: a covered point lies in a cell of each mesh with the same box and corner values; a renumbered mesh is shown legal and conforming.
C122 Micro-step model of C115; invariant: on each body at most one evaluation is under way, it will end as in the sequential model, and the body is the result of the evaluations completed before; results from history independence.
C123 Model with infinities and NaN (`Model/Special.lean`); the bin lookup is shown equal to that of the exact model at finite coordinates, to refuse infinities, and to reach the undefined conversion for NaN, from the bin invariants.
C124 Model of the shipped classes over any machine arithmetic (`Model/SpecialPiecewise.lean`); the three regions as truth values of the computed comparisons; with IEEE special values by cases, error bounds from `Rounding`; over the reals the objects are those of C78.
C125 Model of the standard library's text of doubles (`Model/NumText.lean`: `%.Pg` and `num_get`/`strtod`, correctly rounded); the printed text denotes the nearest P-digit decimal (`Spec/Decimal.lean`); with 2^p < 10^(P-1) rounding to p bits gives the number back; then C53.
C126 The text reader of `Model/Vtk.lean`, parametrised by the arithmetic of the mesh (`MeshOps`), with the decimal conversion of `Model/NumText.lean` and the rounded mesh of `Model/Rounded.lean` (`Model/RoundedVtk.lean`). The file read with rounding is a well-formed file of the rounded numbers; rounding keeps rectangles, conformity and resolution; the interpolant of the rounded data is within (8k+1)uM of that of the file; then C94 and C107.
C127 Magnitude and grid of every intermediate result, function by function (`Lemmas/Binary64*.lean`): differences of multiples of 2^-g are 0 or at least 2^-g; 1 - l for a double l is 0 or at least 2^-53; sums of terms up to 2^X saturate at 2^(X+54). So a rounding that is correct on normal doubles agrees with `nearestEven 53` everywhere it is applied; then C94, C95, C107, C126.
C128 Numerals as structures with a text and a value (`Spec/Numeral.lean`); the scanner of `Model/NumText.lean` accepts exactly their texts (both directions by cases on sign, digits, point, exponent); then C126.
C129 Smooth functions by partial derivatives (`Spec/Smooth.lean`); the classical error bound of linear interpolation (mean value theorem, Taylor) applied direction by direction gives the bilinear and trilinear bounds, with extrapolation in direction 2 for the wrong-layer case of C28; then C23, C28, C94 and `hex_eval`.
C130 A relation between a body and its renumbered counterpart (same grid, nodes and data related by the permutation, element lists equal up to node numbers) preserved by every function of reading and evaluation (`Lemmas/Rename.lean`), for an arbitrary rounding; the exact statement is the case of no rounding. The 3D geometry statement from C28 and C112.
C131 Factors that rounding does not notice (`Spec/Scale.lean`; powers of two and their negatives for IEEE rounding, `Lemmas/RoundingScale.lean`); a map from bodies to bodies with scaled data that commutes with every function of reading and evaluation (`Lemmas/ScaleData.lean`). Order and signs: the weights of corner values are not negative, rounding is monotone, and results do not depend on histories (`Fl.eval_free`).
C132 A map from bodies to bodies in other units that commutes with every function of reading and evaluation, for an arbitrary rounding that respects the factors (`Lemmas/RoundedMove.lean`); then `Fl.eval_free` for histories.
C133 Two bodies that differ only in what earlier evaluations left behind are related (`Lemmas/RoundedAny.lean`); every evaluation at a position with an element overwrites what it uses, so related bodies give the same outcome; at the other positions the body as read has nothing but zeros. For an arbitrary rounding.
C134 Magnitudes of all intermediate results (`Lemmas/Binary64Series.lean`): products of basis functions are 0 or between 2^-dB and 2^dB, a sum of doubles that are 0 or at least 2^-g is a multiple of 2^-(g+53), so 0 or not too small, and sums of terms up to 2^X saturate at 2^(X+54); so a rounding that is correct in the normal range is `nearestEven 53` throughout. For the shipped functions the magnitudes are computed from the syntax trees of their C++ expressions; C102, C116, C118, C119 do the rest. Examples on doubles with gradual underflow; at 2^-600 the square underflows.
C135 As C71 and C36: indices of coordinates in the range of a bin are not negative because rounding keeps the order (with a negative width the range has one point at most), so `add_range` counts upwards and ends (`Lemmas/RoundedTerm.lean`); the loops of the reader use up the text. Doubles with gradual underflow keep the order (`Lemmas/Binary64Order.lean`).
C136 An evaluation is a program of reads and writes of the numbers evaluations store (`Model/ThreadsSeries.lean`), built from what no evaluation changes; run undisturbed it is the evaluation of the sequential model (`Lemmas/ThreadsSeries.lean`), so C46-C48 give its result. Invariant over schedules: the series of an idle thread is well formed, the evaluation under way would end with the right result if undisturbed. The number of steps is bounded whatever is read. A schedule that makes the result wrong without locks is a witness.
C137 The programs of C136 with basis functions that return a number or an exception (`Model/SeriesThrow.lean`); the state at the exception is what was written before it. Where nothing throws the program is that of C136; where something throws only stored values of basis functions have been written, and the next evaluation writes all it reads.
C138 `read_vtk` makes the bins before the cells; the product in `calc_volume` overflows for every order of its (positive) factors when the whole product does not fit an `int`. With C22 (meshes whose bins fit are built) this gives an equivalence. The witness is a family of meshes, one for each n >= 46340.
C139 The interpolators are made in the order of the cells, filing them into bins keeps the order, so `is_in_range` is first true for an interpolator of the first cell that contains the point (invariant `Interps.sorted`, `Built.none_before` in `Lemmas/Field.lean`). Slopes are stated as difference quotients of the interpolant, the same for every step.
C140 With C139: a cell contains a point iff in each direction it has a node before and a node beyond it, which does not depend on the order of the nodes; interpolants are affine along each axis, and such functions are determined by their values at the nodes (`Lemmas/Turn.lean`).
C141 The generated texts are sums of products: their errors relative to the expression without signs (C117), widened by the errors of the series (C102); an induction over the variables bounds the tensor sums (`tensorSum_gap`). With an exponent range: products of moderate numbers are moderate, and sums of doubles of moderate size are multiples of a power of two, so they are 0 or not too small (`Lemmas/Binary64Cheb.lean`).
C142 An evaluation is a program of reads and writes of the numbers stored in the component functions (`Model/ThreadsFunc.lean`). Invariant over schedules, for one thread: the numbers its evaluation has written and will still read are in the function, and nobody else writes other numbers there; the other threads write only values of components at their own points. The number of steps is bounded whatever is read. A schedule that makes a result wrong without locks is a witness.
C143 As C142, for the values of conditions, expressions, pieces and functions (`Model/ThreadsPiecewise.lean`), over a general model of threads that share stored numbers (`Model/Conc.lean`): an evaluation reads only what it wrote itself, so a schedule does harm only if another thread writes another number into the same place in between.
C144 Memory: a field of a body is kept with the address of the body whose mesh it points to (`Model/BodyCopy.lean`); values: every variable has a body of its own (`Spec/BodyCopy.lean`). Simulation over histories: the mesh a field points to is the mesh of the value but for scratch indices, which no evaluation depends on (`Lemmas/BodyCopy.lean`). Witnesses for assignment to, reading into, and destruction of the source.
C145 The sum over the corners of the first cell that reaches the point (as C139) compared with mixed difference quotients of the trilinear interpolant.
C146 The values are those of the first cell that reaches the point (C139); on the points where this cell contains the point they are trilinear interpolants that agree on shared faces, glued over finitely many closed boxes. Witness: two stacked cubes.
C147 The command lines of C100 split into commands and words by a small specification of the shell (`Spec/Shell.lean`: blanks and semicolons; no quotes, expansions or redirections, lines with those are not judged). Witnesses: blank in the location, semicolon in a directory name.
C148 The cell that answers depends on mesh and point alone (C139; in floating-point arithmetic the cell found by the lemmas of C94 and C107); the result depends on the data at its corners alone. Witness: two stacked cubes.
C149 At a point of both bodies the cells that answer are one inside the other (C23, C139, faces shared: conforming); a bilinear (trilinear) function is determined by its values at the corners of any cell inside, so the two interpolants are one function. Witness: two stacked cubes, one cut.
C150 One evaluation is that of the first definition that applies (C55, C56), getters refer to the definition that applied last (C57); these depend only on the set of definitions when those that apply agree (do not overlap). No bound on the number of pieces or conditions.
C151 The tensor sums of C46-C48 written as sums over all tuples of indices (`Lemmas/TensorFlat.lean`), reindexed by the permutation; the added terms of a longer sum are 0.
C152 At a point of the body both answer from a cell that contains it, the first in their own list (C23, C139); on a conforming mesh all such cells have the same interpolant there (C27), and inside a cell there is one only. Witness: two stacked cubes in both orders.
C153 The texts written are read back as in C99; their functions are determined by the set of (class, input type, output type) declared, their order by the order of the tables. The scan of C60 depends only on the list of declarations.
C154 Trees of branches (`Props/PieceNest.lean`), the objects made from them, and the list of paths to their leaves; mutual induction on the tree.
