#!/usr/bin/env python3
"""Generates /verif/properties.jsonl.  One call of P(...) per property."""
import json, os
I = "include/IntegrationTools/"
ND, BIN = I+"datastruc/PNDArray.hh", I+"datastruc/Bin.hh"
QUAD, HEX, INT = I+"pfield/interpolation/Quad.hh", I+"pfield/interpolation/Hexahedron.hh", I+"pfield/interpolation/Interpolator.hh"
MESH, FIELD, BODY = I+"pfield/Mesh.hh", I+"pfield/PField.hh", I+"pfield/Body.hh"
PF = I+"pfunction/"
SER, BS, BSB = PF+"PSeriesFunction.hh", PF+"PBasisSet.hh", PF+"PBasisSetBase.hh"
PFN, PFB, PSF, PSB, FLEX = PF+"PFunction.hh", PF+"PFuncBase.hh", PF+"PSimpleFunction.hh", PF+"PSimpleBase.hh", PF+"PFlexFunction.hh"
PW = I+"piecewise/"
LW = "src/lw/lw.cpp"
EXT = "src/c/PExtern.cc"
out = []
def P(id, title, statement, quantifier, why, anchors):
    out.append(dict(id=id, title=title, statement=statement, quantifier=quantifier, why_tests_cant=why, anchors=anchors))

# ---------------- PNDArray ----------------
P("C01", "Linear -> tensor -> linear index round trip",
  "For an array with positive extents whose volume fits an int, converting any linear index l in [0, volume) to tensor indices succeeds, gives one index per dimension with 0 <= t[i] < dim(i), and linear_index of the result is l again.",
  "every order, every positive extents, every linear index below the volume",
  "The number of shapes and indices is unbounded; a test samples a few shapes.",
  [ND+":tensor_indices", ND+":linear_index", ND+":generate_unroll"])
P("C02", "Tensor -> linear -> tensor index round trip",
  "For every in-range tensor index t, linear_index(t) is in [0, volume), and tensor_indices of it returns t; hence distinct tensor indices never share a slot.",
  "every order, every positive extents, every in-range tensor index",
  "Needs all shapes and all index tuples.",
  [ND+":linear_index", ND+":tensor_indices"])
P("C03", "Row-major storage order",
  "linear_index(t) is the row-major position ((t0*d1+t1)*d2+t2)...: the first index is the outer loop, and linear order is exactly the lexicographic order of in-range tensor indices.",
  "every shape and every pair of in-range tensor indices",
  "Order preservation is a statement about all pairs in all shapes.",
  [ND+":linear_index", ND+":generate_unroll"])
P("C04", "Element writes touch exactly one element",
  "Writing through a valid tensor index changes the value read at that tensor index to the value written and leaves the value read at every other valid tensor index (and the shape) unchanged.",
  "every array reachable by constructor/resize/reshape/clear/writes, every pair of valid indices, every value",
  "Frame conditions range over all other indices and histories.",
  [ND+":operator()"])
P("C05", "reshape keeps values and refuses a different volume",
  "For a non-empty dim' whose products fit an int: reshape(dim') sets order() to dim'.size() and keeps the volume and the value at every linear index when prod(dim') equals the volume; otherwise the program exits with status 1. Whatever dim' is, it never changes a stored value.",
  "every reachable array and every new non-empty extents list (zero and negative extents included) whose products, from the left and from the right, fit an int; the last sentence: every list",
  "Any array contents and any new shape.",
  [ND+":reshape", ND+":calc_volume"])
P("C06", "Array shape invariant over any history",
  "After any sequence of constructor, resize, reshape, clear and element writes that ran without error, order() is the number of extents, volume() is the product of extents (0 if there are none), the storage holds volume() elements, and dim() and dim(i) report the extents given last.",
  "every finite history of operations",
  "Histories are unbounded.",
  [ND+":resize", ND+":reshape", ND+":clear"])
P("C07", "Array operations are memory-safe for every shape",
  "Constructing or resizing an array never has undefined behaviour: extents lists either give a usable array or a reported error. (The code violates this for an empty extents list and for volumes overflowing int; it holds for every non-empty list of positive extents with volume <= INT_MAX.)",
  "every extents list",
  "Undefined behaviour need not be visible in a test run.",
  [ND+":resize", ND+":generate_unroll", ND+":calc_volume"])
# ---------------- Bin ----------------
P("C08", "Bin contents = items added to that bin, in order",
  "After any sequence of add, add_once and add_range calls, contents(c) for an in-range c is exactly the list of items added (in call order) by calls whose bin or box of bins includes c's bin (add_once skipping an item already there).",
  "every bin geometry, every history of successful insertions, every in-range query coordinate",
  "Histories and coordinates are unbounded.",
  [BIN+":add", BIN+":add_once", BIN+":add_range", BIN+":contents"])
P("C09", "Out-of-range coordinates are rejected and change nothing",
  "add/add_once/contents with a coordinate below min or above max in some direction throws std::domain_error and leaves the contents of every bin unchanged.",
  "every bin, every coordinate outside the range in at least one direction",
  "All coordinates, all histories.",
  [BIN+":indices"])
P("C10", "Every coordinate accepted by the range check addresses its own bin",
  "Every coordinate with min <= c <= max is put in a bin that exists. (Violated for c == max: the computed index equals N, which is out of bounds or aliases another bin; it holds for min <= c < max.)",
  "every bin geometry, every accepted coordinate",
  "The failure is at exact boundary values and silent when it aliases.",
  [BIN+":indices", BIN+":contents"])
P("C11", "add_range fills exactly the box",
  "add_range(x, lo, hi) with lo <= hi terminates and appends x exactly once to every bin whose index lies between the bins of lo and hi in every direction, and to no other bin.",
  "every bin, every pair of in-range corner coordinates with lo <= hi, any number of dimensions",
  "The odometer loop must be right for every box shape and dimension.",
  [BIN+":add_range"])
P("C12", "add_once is idempotent and creates no duplicates",
  "A bin filled only through add_once never holds two equal items, and repeating the same add_once call changes nothing.",
  "every history of add_once calls",
  "Unbounded histories.",
  [BIN+":add_once"])
P("C13", "max_size is the exact maximum bin size",
  "max_size() is at least the size of every bin, and is 0 or attained by some bin.",
  "every reachable bin structure",
  "All bin structures.",
  [BIN+":max_size"])
# ---------------- interpolation ----------------
P("C14", "Shape functions are nodal",
  "In a rectangular cell (Quad or Hexahedron) with positive dimensions, the interpolating function of corner j is 1 at corner j and 0 at every other corner.",
  "every cell position and size, every pair of corners",
  "All real cell geometries.",
  [QUAD+":Quad_f", HEX+":Hexahedron_f", MESH+":construct_interpolating_functions"])
P("C15", "Partition of unity",
  "At every point the 4 (8) interpolating functions of a cell sum to 1 and their gradients and Hessians sum to 0.",
  "every cell, every point, every derivative direction",
  "All real points.",
  [QUAD+":Quad_f", QUAD+":Quad_grad_0", HEX+":Hexahedron_f"])
P("C16", "Interpolator gradients and Hessians are the true derivatives",
  "grad(coord, di) is the partial derivative of operator()(coord) with respect to coordinate di, and hess(coord, di, dj) is the partial derivative of grad(coord, di) with respect to coordinate dj; the Hessian is symmetric.",
  "every cell, every corner, every point, all directions (Quad and Hexahedron)",
  "Derivatives are limits; finite differences at samples do not establish them.",
  [QUAD+":Quad_grad_0", QUAD+":Quad_hess_0_1", HEX+":Hexahedron_grad_0", HEX+":Hexahedron_hess_0_1"])
P("C17", "Shape functions lie in [0,1] inside the cell",
  "At every point of the closed cell each interpolating function is between 0 and 1.",
  "every cell and every point of it",
  "All real points.",
  [QUAD+":Quad_f", HEX+":Hexahedron_f"])
P("C18", "Quad range test covers exactly the closed cell",
  "A point is in range of at least one of the 4 interpolators of a Quad cell if and only if it lies in the closed cell.",
  "every Quad cell, every point",
  "Half-open tests at each corner must cover all edges and corners.",
  [QUAD+":is_in_range"])
P("C19", "Hexahedron range test covers exactly the closed cell",
  "A point is in range of at least one of the 8 interpolators of a Hexahedron cell if and only if it lies in the closed cell. (Violated: the z direction is never tested, so points arbitrarily far above or below are accepted.)",
  "every Hexahedron cell, every point",
  "A single-layer test mesh never shows it.",
  [HEX+":is_in_range"])
P("C20", "Interpolator min()/max() is the cell's bounding box",
  "For every corner of a rectangular cell, min() and max() of its interpolator are the lowest and highest corner of the cell.",
  "every cell (Quad, Hexahedron) and corner",
  "All geometries and all corners.",
  [QUAD+":min", QUAD+":max", HEX+":min", HEX+":max"])
P("C21", "eval_grad/eval_hess of the element functions refresh every component",
  "After eval_grad(v) (eval_hess(v)) every grad(di) (hess(di,dj)) getter of a Quad or Hexahedron returns that derivative at v. (Holds for Quad; violated for Hexahedron: component 2 is never refreshed.)",
  "every evaluation point, every component, every earlier history",
  "The stale component shows the right value whenever it was evaluated before.",
  [QUAD+":eval_grad", QUAD+":eval_hess", HEX+":eval_grad", HEX+":eval_hess"])
# ---------------- mesh + field ----------------
P("C22", "A well-formed 2D mesh is built without error and every interpolator is filed in every bin its cell touches",
  "Reading any list of points and rectangular Quad cells (positive extent in both directions) builds the mesh without error or undefined behaviour, and for every point of a cell the bin of that point contains the 4 interpolators of the cell.",
  "every rectilinear point/cell list, every point of every cell",
  "Unbounded meshes and points.",
  [MESH+":read_vtk", BIN+":add_range"])
P("C23", "2D field evaluation is the bilinear interpolant of the containing cell",
  "Evaluating a scalar field at any point of the body returns the bilinear interpolation of the nodal values of a cell that contains the point, whatever was evaluated before.",
  "every well-formed 2D mesh, every nodal data, every point in some cell, every earlier evaluation history",
  "All meshes, all points, all histories of the mutable buffers.",
  [FIELD+":operator()", MESH+":basis_functions", QUAD])
P("C24", "2D field interpolates the nodal data",
  "On a conforming mesh (cells that touch share the nodes of their common corner or edge; no hanging nodes), evaluating the field at a mesh node used by a cell returns that node's data value.",
  "every conforming well-formed 2D mesh, every data, every node, every earlier history",
  "All meshes and nodes.",
  [FIELD+":operator()"])
P("C25", "2D field reproduces affine and bilinear data",
  "If the nodal data are samples of a + b*x + c*y + d*x*y then the field equals it at every point of the body and its gradient is (b + d*y, c + d*x).",
  "every well-formed 2D mesh, every affine/bilinear function, every point of the body",
  "All meshes and functions.",
  [FIELD+":operator()", FIELD+":grad"])
P("C26", "2D field stays within the nodal data range",
  "At every point of the body the field value lies between any lower and upper bound of the nodal data.",
  "every well-formed 2D mesh, every data, every point of the body",
  "All real points.",
  [FIELD+":operator()"])
P("C27", "2D field is single-valued across shared edges",
  "When neighbouring cells share the nodes of their common edge, a point on the edge gets the same value from either cell, so the result does not depend on cell order.",
  "every conforming pair of cells, every point on the common edge",
  "All geometries.",
  [MESH+":basis_functions", QUAD+":is_in_range"])
P("C28", "3D field evaluation is the trilinear interpolant of the containing cell",
  "Evaluating a 3D scalar field at a point of the body returns the trilinear interpolation of a cell containing the point. (Violated: a cell above or below the point may be used; holds when every cell in the point's bin that matches in x and y also contains the point in z.)",
  "every well-formed 3D mesh, every point",
  "Meshes with one layer of cells, or points away from bin overlaps, give the right answer.",
  [FIELD+":operator()", HEX+":is_in_range", MESH+":basis_functions"])
P("C29", "Evaluation at a point outside every cell does not depend on earlier calls",
  "Evaluating a field at a point in bin range but in no cell gives a result determined by the arguments. (Violated: the weights of the previous evaluation are silently reused.)",
  "every mesh, every uncovered point, every earlier history",
  "A fresh field returns 0 there; only a history exposes the stale buffers.",
  [MESH+":basis_functions", FIELD+":operator()"])
P("C30", "Evaluation outside the binned region throws and leaves the stored value",
  "Evaluating a field outside the binned region throws std::domain_error and the stored value (getter) is unchanged.",
  "every mesh, every coordinate outside the bin range",
  "All coordinates.",
  [FIELD+":operator()", BIN+":indices"])
P("C31", "Field evaluation is memory-safe",
  "Evaluating value, gradient or Hessian of a field over a well-formed mesh with data for every node never accesses its buffers, the data or the bins out of bounds, at any coordinate strictly inside the bin range.",
  "every well-formed mesh, every coordinate, every history",
  "Out-of-bounds accesses need not crash.",
  [FIELD+":PField", MESH+":basis_functions", MESH+":max_bin_size"])
P("C32", "2D field gradient and Hessian are derivatives of the interpolant",
  "At every point of the body grad(coord,di) and hess(coord,di,dj) are the partial derivatives of the bilinear interpolant of a cell containing the point.",
  "every well-formed 2D mesh, every data, every point, all directions",
  "Derivatives at all points.",
  [FIELD+":grad", FIELD+":hess", MESH+":grad_basis_functions", MESH+":hess_basis_functions"])
P("C33", "Field getters return the last evaluation",
  "operator()(), grad(di) and hess(di,dj) of a field return the result of the most recent successful evaluation of that same component, and eval_grad/eval_hess refresh every component.",
  "every history of evaluations",
  "Unbounded histories.",
  [FIELD+":eval_grad", FIELD+":eval_hess", FIELD+":operator()"])
P("C34", "Mesh min/max are the bounding box of the points",
  "After reading points, min(i)/max(i) are the least and greatest i-th coordinate over all points.",
  "every non-empty point list",
  "All point lists.",
  [MESH+":read_vtk", MESH+":min", MESH+":max"])
P("C35", "Reading a written vtk file recovers points, cells and fields",
  "Reading a file consisting of POINTS, CELLS, CELL_TYPES, POINT_DATA and SCALARS sections in the legacy ASCII layout yields exactly the listed points, cells and named scalar fields.",
  "every list of points, cells and fields",
  "Unbounded files.",
  [BODY+":read_vtk", MESH+":read_vtk"])
P("C36", "Reading a vtk file terminates",
  "read_vtk returns or reports an error for every file. (Violated: if the file cannot be opened, or a number is malformed, the read loop never ends.)",
  "every file content, including a missing file",
  "Non-termination cannot be observed by a test.",
  [BODY+":read_vtk", MESH+":read_vtk"])
P("C37", "find_scalar_field finds the first field of that name or throws",
  "find_scalar_field(name) returns the first field read with that name, and throws std::invalid_argument exactly when there is none.",
  "every list of fields and every name",
  "All field lists.",
  [BODY+":find_scalar_field"])
# ---------------- function wrappers ----------------
P("C38", "Function handles are values: copies are independent",
  "Copying or assigning a PSimpleFunction/PFunction/PBasisSet gives an independent function: evaluating, reassigning or destroying one handle never changes what any other handle returns.",
  "every history of construct/copy/assign/set/evaluate/destroy over any number of handles",
  "Aliasing errors need particular histories.",
  [PSF+":operator=", PFN+":operator=", BS+":operator="])
P("C39", "No double free, no leak, no use after free",
  "In any history in which no handle is assigned to itself, assigned from an empty handle, evaluated while empty or given a pointer another handle owns, no object is freed twice or used after free, and destroying all handles frees every object they own.",
  "every such history",
  "Memory errors need particular histories and may be silent.",
  [PSF+":~PSimpleFunction", PSF+":set", PFN+":~PFunction", PFN+":set"])
P("C40", "Self-assignment and assignment from an empty handle are safe",
  "h = h and h = empty leave h usable. (Violated: self-assignment uses a freed object and assignment from an empty handle dereferences NULL.)",
  "every handle state",
  "Undefined behaviour may appear to work.",
  [PSF+":operator=", PFN+":operator="])
P("C41", "Simple function getter returns the last evaluation",
  "operator()() of a PSimpleFunction returns the value of the most recent operator()(var)/eval(var); reading before any evaluation reads an uninitialised value.",
  "every history of evaluations",
  "Unbounded histories.",
  [PSB+":operator()", PSF+":operator()"])
P("C42", "Flexible function accepts exactly consistent derivative tables",
  "Constructing or setting a PFlexFunction succeeds iff the descriptions, gradients, Hessian rows and every Hessian row have as many entries as there are variables, else the program exits with status 1; after success every component can be evaluated. A default-constructed one has an empty name and no variables, and can be set like any other.",
  "every combination of list sizes",
  "All sizes.",
  [FLEX+":check", FLEX+":set"])
P("C43", "Function getters return the last evaluation of that component",
  "For a PFlexFunction (and the generated functions of the same layout) operator()(), grad(di), hess(di,dj) return the most recent evaluation of that component, and eval_grad/eval_hess refresh every component.",
  "every history of evaluations, any number of variables",
  "Unbounded histories.",
  [FLEX+":eval_grad", FLEX+":eval_hess", "tests/testlib/MyFunc.hh"])
P("C44", "Undefined members throw instead of returning garbage",
  "Calling a member that a function class does not override throws std::runtime_error and does not return a value.",
  "every unoverridden member and every argument",
  "All arguments.",
  [PFB+":undefined", PSB+":undefined"])
# ---------------- series ----------------
P("C45", "Basis set evaluation fills every term",
  "After eval(x)/eval_grad(x)/eval_hess(x) each getter term returns phi_i(x)/phi_i'(x)/phi_i''(x); evaluating a single term changes only that stored term; where the class does not define the function, the program ends.",
  "every basis set, size, point and history",
  "Unbounded sizes and histories.",
  [BSB+":eval", BSB+":operator()"])
P("C46", "Series value is the tensor-product sum",
  "series(x) equals sum over all tensor indices t of coeff(t) * prod_i phi_{i,t_i}(x_i), whatever was evaluated before.",
  "every number of variables, basis sets, sizes, coefficients, points and histories",
  "Unbounded orders and sizes.",
  [SER+":operator()", SER+":calc_val"])
P("C47", "Series gradient via eval_grad is the derivative",
  "After eval_grad(x), grad(di) equals sum_t coeff(t) * phi'_{di,t_di}(x_di) * prod_{i != di} phi_{i,t_i}(x_i), which is the partial derivative of series(x) when each phi' is the derivative of phi.",
  "every order, basis, coefficients, point, direction, history",
  "Unbounded orders; derivatives.",
  [SER+":eval_grad", SER+":calc_grad_val"])
P("C48", "Series Hessian via eval_hess is the second derivative and symmetric",
  "After eval_hess(x), hess(di,dj) equals the second partial derivative formula (phi'' on the diagonal, phi'*phi' off it), is symmetric and is the derivative of the gradient.",
  "every order, basis, coefficients, point, pair of directions, history",
  "Unbounded orders; derivatives.",
  [SER+":eval_hess", SER+":calc_hess_val"])
P("C49", "Single-shot series.grad(x,di) / hess(x,di,dj) are the derivatives at x",
  "series.grad(x,di) and series.hess(x,di,dj) return the derivatives at x for every x. (Violated: the other directions are not evaluated at x; values stored by an earlier evaluation are used, and x_i truncated to int is used as a term index, possibly out of bounds.)",
  "every series, point, direction, history",
  "It returns the right value whenever the series was just evaluated at the same point with small non-negative coordinates, as in the repository's test.",
  [SER+":grad", SER+":hess", BS+":operator()"])
P("C50", "A series used through PFunction provides derivatives",
  "f = series; f.grad(x,di), f.hess(x,di,dj), f.grad(di), f.hess(di,dj) give the series' derivatives. (Violated: the members do not override the base members, so every such call throws.)",
  "every series and every argument",
  "A test on the concrete class never goes through the base class.",
  [SER+":grad", PFN+":grad", PFB+":grad"])
P("C51", "Tensor basis evaluation is the product of factors",
  "basis(t,x), basis_grad(t,x,di), basis_hess(t,x,di,dj) are the products of the basis factors with the factor in direction di (dj) replaced by its derivative; basis(j,t,x) and its derivatives are those of the one function; eval_basis(x,j) evaluates only basis set j; print_basis and its derivatives list all products with their indices.",
  "every order, index, point, direction",
  "Unbounded orders.",
  [SER+":basis", SER+":basis_grad", SER+":basis_hess"])
P("C52", "set() shapes the coefficients and zeroes them",
  "After set(basis_sets) with a non-empty list, coeff() has one dimension per basis set with extent its size, all coefficients are 0, and the series evaluates to 0 everywhere; after clear() it has no variables, coefficients, basis sets or stored derivatives and its stored value is 0.",
  "every previous state and every list of basis sets",
  "All histories.",
  [SER+":set", SER+":clear"])
P("C53", "Coefficient text round trip",
  "read_coeff of the text printed by print_coeff restores every coefficient, for any value format whose text reads back as the same value; a file with fewer lines sets the coefficients it has lines for, keeps the others and fails the stream.",
  "every shape and coefficients",
  "Unbounded shapes.",
  [SER+":print_coeff", SER+":read_coeff"])
P("C54", "Series is linear in its coefficients",
  "With fixed basis sets, the value at x of a series with coefficients a*c + b*d is a times that with c plus b times that with d.",
  "every order, sizes, coefficients, point",
  "Unbounded.",
  [SER+":calc_val"])
# ---------------- piecewise ----------------
P("C55", "The first piece containing the point is the one evaluated",
  "A piecewise function's value, gradient and Hessian at x are those of the first piece (in list order) all of whose conditions hold at x.",
  "every list of pieces, conditions, point and history",
  "Unbounded lists.",
  [PW+"PPieceWiseFuncBase.hh:piece", PW+"Piece.hh:in_piece"])
P("C56", "Outside every piece evaluation throws domain_error and keeps the current piece",
  "in_piece(x) is false iff evaluation at x throws std::domain_error; the throwing evaluation does not change which piece the getters refer to nor the stored values.",
  "every list of pieces, point and history",
  "All points and histories.",
  [PW+"PPieceWiseFuncBase.hh:piece", PW+"PPieceWiseFuncBase.hh:in_piece"])
P("C57", "Piecewise getters refer to the piece of the last evaluation",
  "After a successful eval/eval_grad/eval_hess at x, the corresponding getters return that piece's value/derivatives at x.",
  "every history followed by a successful evaluation",
  "Unbounded histories.",
  [PW+"PPieceWiseFuncBase.hh:operator()", PW+"PPieceWiseFuncBase.hh:eval_grad"])
P("C58", "Piecewise simple functions agree with the piecewise function",
  "simplefunction(), grad_simplefunction(di), hess_simplefunction(di,dj) evaluated at x return what operator()(x), grad(x,di), hess(x,di,dj) return, and throw domain_error at the same points; their in_piece(x) and piece(x) tell whether and which piece applies.",
  "every list of pieces and every point",
  "All points.",
  [PW+"PPieceWiseFuncBase.hh:simplefunction", PW+"PPieceWiseSimpleBase.hh:eval"])
P("C59", "Printed piecewise forms list every piece and condition in the requested notation",
  "csrc(), sym() and latex() of a piece/piecewise function contain each expression and condition, in order, in that notation. (Violated by latex(): with three or more conditions the middle ones are printed in sym notation.)",
  "every list of pieces and conditions",
  "Unbounded lists; the repository's pieces have at most two conditions.",
  [PW+"SimplePiece.hh:latex", PW+"SimplePiece.hh:csrc", PW+"PPieceWiseSimpleBase.hh:csrc"])
# ---------------- library writer ----------------
P("C60", "Library collection tables stay rectangular and duplicate-free",
  "However many headers are scanned, every (input type, output type) table has one cell per pair of known types, no type is listed twice, and no name appears twice in one cell; a repeated name ends the program with status 1.",
  "every sequence of scanned class declarations",
  "Unbounded inputs.",
  [LW+":Collection", LW+":add_intype", LW+":add_outtype", LW+":scanline_for_class"])
P("C61", "Every checkout function declared in the header is defined in the source and vice versa",
  "The set of checkout signatures written to PLibrary.hh equals the set of those defined in PLibrary.cc.",
  "every sequence of scanned declarations and every list of variable container types",
  "Unbounded inputs; a mismatch is only a link error for some inputs.",
  [LW+":write_header", LW+":write_source"])
P("C62", "checkout(name) yields the class of that name or throws",
  "The generated checkout for a signature constructs the class registered under name for that signature, and throws std::runtime_error exactly when no such class was scanned.",
  "every collection, signature, name",
  "Unbounded libraries.",
  [LW+":write_source"])
P("C63", "Only user headers are scanned",
  "A directory entry is scanned iff its name ends in .hh and it is not one of the five library header names.",
  "every file name",
  "All strings.",
  [LW+":is_header", LW+":is_generated_header"])
# ---------------- shipped functions ----------------
P("C64", "Monomial basis set is x^i with its derivatives",
  "Monomial term i (i < 30) evaluates to x^i, its grad to i*x^(i-1) and its hess to i*(i-1)*x^(i-2), for every x; grad and hess are the true derivatives.",
  "all 30 terms, every real x",
  "All reals.",
  ["tests/testlib/Monomial.hh"])
P("C65", "Chebyshev basis set is T_i with its derivatives",
  "Chebyshev term i (i < 30) is the Chebyshev polynomial T_i (T_0=1, T_1=x, T_{i+1}=2xT_i-T_{i-1}), and grad/hess are its first and second derivatives, for every x.",
  "all 30 terms, every real x",
  "All reals.",
  ["tests/testlib/Chebyshev.hh"])
P("C66", "Example functions' derivatives are correct",
  "For Quadratic and MyFunc every grad component is the partial derivative of the value and every hess component the partial derivative of the grad component, at every point. Copies and assigned objects compute the same, and the name, the number of variables, their names and descriptions stay those of the class; the parts handed out as simple functions (value, each derivative) report the names of their classes.",
  "every point, every component, every history",
  "All reals.",
  ["tests/testlib/Quadratic.hh", "tests/testlib/MyFunc.hh"])
P("C67", "Basis set resize keeps evaluated terms",
  "Resizing a Monomial/Chebyshev basis set to N <= 30 keeps the stored values and functions of the first min(old,N) terms; N > 30 exits with status 1.",
  "every old and new size and stored state",
  "All sizes and states.",
  ["tests/testlib/Monomial.hh:resize", "tests/testlib/Monomial.hh:copy", "tests/testlib/Monomial.hh:construct"])
exec(open(os.path.join(os.path.dirname(__file__), "props_more.py")).read()) if os.path.exists(os.path.join(os.path.dirname(__file__), "props_more.py")) else None
with open(os.path.join(os.path.dirname(__file__), "..", "properties.jsonl"), "w") as f:
    for o in out: f.write(json.dumps(o, ensure_ascii=False) + "\n")
assert len({o["id"] for o in out}) == len(out)
print(len(out))
