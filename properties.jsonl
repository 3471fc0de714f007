{"id": "C01", "title": "Linear -> tensor -> linear index round trip", "statement": "For an array with positive extents whose volume fits an int, converting any linear index l in [0, volume) to tensor indices succeeds, gives one index per dimension with 0 <= t[i] < dim(i), and linear_index of the result is l again.", "quantifier": "every order, every positive extents, every linear index below the volume", "why_tests_cant": "The number of shapes and indices is unbounded; a test samples a few shapes.", "anchors": ["include/IntegrationTools/datastruc/PNDArray.hh:tensor_indices", "include/IntegrationTools/datastruc/PNDArray.hh:linear_index", "include/IntegrationTools/datastruc/PNDArray.hh:generate_unroll"]}
{"id": "C02", "title": "Tensor -> linear -> tensor index round trip", "statement": "For every in-range tensor index t, linear_index(t) is in [0, volume), and tensor_indices of it returns t; hence distinct tensor indices never share a slot.", "quantifier": "every order, every positive extents, every in-range tensor index", "why_tests_cant": "Needs all shapes and all index tuples.", "anchors": ["include/IntegrationTools/datastruc/PNDArray.hh:linear_index", "include/IntegrationTools/datastruc/PNDArray.hh:tensor_indices"]}
{"id": "C03", "title": "Row-major storage order", "statement": "linear_index(t) is the row-major position ((t0*d1+t1)*d2+t2)...: the first index is the outer loop, and linear order is exactly the lexicographic order of in-range tensor indices.", "quantifier": "every shape and every pair of in-range tensor indices", "why_tests_cant": "Order preservation is a statement about all pairs in all shapes.", "anchors": ["include/IntegrationTools/datastruc/PNDArray.hh:linear_index", "include/IntegrationTools/datastruc/PNDArray.hh:generate_unroll"]}
{"id": "C04", "title": "Element writes touch exactly one element", "statement": "Writing through a valid tensor index changes the value read at that tensor index to the value written and leaves the value read at every other valid tensor index (and the shape) unchanged.", "quantifier": "every array reachable by constructor/resize/reshape/clear/writes, every pair of valid indices, every value", "why_tests_cant": "Frame conditions range over all other indices and histories.", "anchors": ["include/IntegrationTools/datastruc/PNDArray.hh:operator()"]}
{"id": "C05", "title": "reshape keeps values and refuses a different volume", "statement": "For a non-empty dim' whose products fit an int: reshape(dim') sets order() to dim'.size() and keeps the volume and the value at every linear index when prod(dim') equals the volume; otherwise the program exits with status 1. Whatever dim' is, it never changes a stored value.", "quantifier": "every reachable array and every new non-empty extents list (zero and negative extents included) whose products, from the left and from the right, fit an int; the last sentence: every list", "why_tests_cant": "Any array contents and any new shape.", "anchors": ["include/IntegrationTools/datastruc/PNDArray.hh:reshape", "include/IntegrationTools/datastruc/PNDArray.hh:calc_volume"]}
{"id": "C06", "title": "Array shape invariant over any history", "statement": "After any sequence of constructor, resize, reshape, clear and element writes that ran without error, order() is the number of extents, volume() is the product of extents (0 if there are none), the storage holds volume() elements, and dim() and dim(i) report the extents given last.", "quantifier": "every finite history of operations", "why_tests_cant": "Histories are unbounded.", "anchors": ["include/IntegrationTools/datastruc/PNDArray.hh:resize", "include/IntegrationTools/datastruc/PNDArray.hh:reshape", "include/IntegrationTools/datastruc/PNDArray.hh:clear"]}
{"id": "C07", "title": "Array operations are memory-safe for every shape", "statement": "Constructing or resizing an array never has undefined behaviour: extents lists either give a usable array or a reported error. (The code violates this for an empty extents list and for volumes overflowing int; it holds for every non-empty list of positive extents with volume <= INT_MAX.)", "quantifier": "every extents list", "why_tests_cant": "Undefined behaviour need not be visible in a test run.", "anchors": ["include/IntegrationTools/datastruc/PNDArray.hh:resize", "include/IntegrationTools/datastruc/PNDArray.hh:generate_unroll", "include/IntegrationTools/datastruc/PNDArray.hh:calc_volume"]}
{"id": "C08", "title": "Bin contents = items added to that bin, in order", "statement": "After any sequence of add, add_once and add_range calls, contents(c) for an in-range c is exactly the list of items added (in call order) by calls whose bin or box of bins includes c's bin (add_once skipping an item already there).", "quantifier": "every bin geometry, every history of successful insertions, every in-range query coordinate", "why_tests_cant": "Histories and coordinates are unbounded.", "anchors": ["include/IntegrationTools/datastruc/Bin.hh:add", "include/IntegrationTools/datastruc/Bin.hh:add_once", "include/IntegrationTools/datastruc/Bin.hh:add_range", "include/IntegrationTools/datastruc/Bin.hh:contents"]}
{"id": "C09", "title": "Out-of-range coordinates are rejected and change nothing", "statement": "add/add_once/contents with a coordinate below min or above max in some direction throws std::domain_error and leaves the contents of every bin unchanged.", "quantifier": "every bin, every coordinate outside the range in at least one direction", "why_tests_cant": "All coordinates, all histories.", "anchors": ["include/IntegrationTools/datastruc/Bin.hh:indices"]}
{"id": "C10", "title": "Every coordinate accepted by the range check addresses its own bin", "statement": "Every coordinate with min <= c <= max is put in a bin that exists. (Violated for c == max: the computed index equals N, which is out of bounds or aliases another bin; it holds for min <= c < max.)", "quantifier": "every bin geometry, every accepted coordinate", "why_tests_cant": "The failure is at exact boundary values and silent when it aliases.", "anchors": ["include/IntegrationTools/datastruc/Bin.hh:indices", "include/IntegrationTools/datastruc/Bin.hh:contents"]}
{"id": "C11", "title": "add_range fills exactly the box", "statement": "add_range(x, lo, hi) with lo <= hi terminates and appends x exactly once to every bin whose index lies between the bins of lo and hi in every direction, and to no other bin.", "quantifier": "every bin, every pair of in-range corner coordinates with lo <= hi, any number of dimensions", "why_tests_cant": "The odometer loop must be right for every box shape and dimension.", "anchors": ["include/IntegrationTools/datastruc/Bin.hh:add_range"]}
{"id": "C12", "title": "add_once is idempotent and creates no duplicates", "statement": "A bin filled only through add_once never holds two equal items, and repeating the same add_once call changes nothing.", "quantifier": "every history of add_once calls", "why_tests_cant": "Unbounded histories.", "anchors": ["include/IntegrationTools/datastruc/Bin.hh:add_once"]}
{"id": "C13", "title": "max_size is the exact maximum bin size", "statement": "max_size() is at least the size of every bin, and is 0 or attained by some bin.", "quantifier": "every reachable bin structure", "why_tests_cant": "All bin structures.", "anchors": ["include/IntegrationTools/datastruc/Bin.hh:max_size"]}
{"id": "C14", "title": "Shape functions are nodal", "statement": "In a rectangular cell (Quad or Hexahedron) with positive dimensions, the interpolating function of corner j is 1 at corner j and 0 at every other corner.", "quantifier": "every cell position and size, every pair of corners", "why_tests_cant": "All real cell geometries.", "anchors": ["include/IntegrationTools/pfield/interpolation/Quad.hh:Quad_f", "include/IntegrationTools/pfield/interpolation/Hexahedron.hh:Hexahedron_f", "include/IntegrationTools/pfield/Mesh.hh:construct_interpolating_functions"]}
{"id": "C15", "title": "Partition of unity", "statement": "At every point the 4 (8) interpolating functions of a cell sum to 1 and their gradients and Hessians sum to 0.", "quantifier": "every cell, every point, every derivative direction", "why_tests_cant": "All real points.", "anchors": ["include/IntegrationTools/pfield/interpolation/Quad.hh:Quad_f", "include/IntegrationTools/pfield/interpolation/Quad.hh:Quad_grad_0", "include/IntegrationTools/pfield/interpolation/Hexahedron.hh:Hexahedron_f"]}
{"id": "C16", "title": "Interpolator gradients and Hessians are the true derivatives", "statement": "grad(coord, di) is the partial derivative of operator()(coord) with respect to coordinate di, and hess(coord, di, dj) is the partial derivative of grad(coord, di) with respect to coordinate dj; the Hessian is symmetric.", "quantifier": "every cell, every corner, every point, all directions (Quad and Hexahedron)", "why_tests_cant": "Derivatives are limits; finite differences at samples do not establish them.", "anchors": ["include/IntegrationTools/pfield/interpolation/Quad.hh:Quad_grad_0", "include/IntegrationTools/pfield/interpolation/Quad.hh:Quad_hess_0_1", "include/IntegrationTools/pfield/interpolation/Hexahedron.hh:Hexahedron_grad_0", "include/IntegrationTools/pfield/interpolation/Hexahedron.hh:Hexahedron_hess_0_1"]}
{"id": "C17", "title": "Shape functions lie in [0,1] inside the cell", "statement": "At every point of the closed cell each interpolating function is between 0 and 1.", "quantifier": "every cell and every point of it", "why_tests_cant": "All real points.", "anchors": ["include/IntegrationTools/pfield/interpolation/Quad.hh:Quad_f", "include/IntegrationTools/pfield/interpolation/Hexahedron.hh:Hexahedron_f"]}
{"id": "C18", "title": "Quad range test covers exactly the closed cell", "statement": "A point is in range of at least one of the 4 interpolators of a Quad cell if and only if it lies in the closed cell.", "quantifier": "every Quad cell, every point", "why_tests_cant": "Half-open tests at each corner must cover all edges and corners.", "anchors": ["include/IntegrationTools/pfield/interpolation/Quad.hh:is_in_range"]}
{"id": "C19", "title": "Hexahedron range test covers exactly the closed cell", "statement": "A point is in range of at least one of the 8 interpolators of a Hexahedron cell if and only if it lies in the closed cell. (Violated: the z direction is never tested, so points arbitrarily far above or below are accepted.)", "quantifier": "every Hexahedron cell, every point", "why_tests_cant": "A single-layer test mesh never shows it.", "anchors": ["include/IntegrationTools/pfield/interpolation/Hexahedron.hh:is_in_range"]}
{"id": "C20", "title": "Interpolator min()/max() is the cell's bounding box", "statement": "For every corner of a rectangular cell, min() and max() of its interpolator are the lowest and highest corner of the cell.", "quantifier": "every cell (Quad, Hexahedron) and corner", "why_tests_cant": "All geometries and all corners.", "anchors": ["include/IntegrationTools/pfield/interpolation/Quad.hh:min", "include/IntegrationTools/pfield/interpolation/Quad.hh:max", "include/IntegrationTools/pfield/interpolation/Hexahedron.hh:min", "include/IntegrationTools/pfield/interpolation/Hexahedron.hh:max"]}
{"id": "C21", "title": "eval_grad/eval_hess of the element functions refresh every component", "statement": "After eval_grad(v) (eval_hess(v)) every grad(di) (hess(di,dj)) getter of a Quad or Hexahedron returns that derivative at v. (Holds for Quad; violated for Hexahedron: component 2 is never refreshed.)", "quantifier": "every evaluation point, every component, every earlier history", "why_tests_cant": "The stale component shows the right value whenever it was evaluated before.", "anchors": ["include/IntegrationTools/pfield/interpolation/Quad.hh:eval_grad", "include/IntegrationTools/pfield/interpolation/Quad.hh:eval_hess", "include/IntegrationTools/pfield/interpolation/Hexahedron.hh:eval_grad", "include/IntegrationTools/pfield/interpolation/Hexahedron.hh:eval_hess"]}
{"id": "C22", "title": "A well-formed 2D mesh is built without error and every interpolator is filed in every bin its cell touches", "statement": "Reading any list of points and rectangular Quad cells (positive extent in both directions) builds the mesh without error or undefined behaviour, and for every point of a cell the bin of that point contains the 4 interpolators of the cell.", "quantifier": "every rectilinear point/cell list, every point of every cell", "why_tests_cant": "Unbounded meshes and points.", "anchors": ["include/IntegrationTools/pfield/Mesh.hh:read_vtk", "include/IntegrationTools/datastruc/Bin.hh:add_range"]}
{"id": "C23", "title": "2D field evaluation is the bilinear interpolant of the containing cell", "statement": "Evaluating a scalar field at any point of the body returns the bilinear interpolation of the nodal values of a cell that contains the point, whatever was evaluated before.", "quantifier": "every well-formed 2D mesh, every nodal data, every point in some cell, every earlier evaluation history", "why_tests_cant": "All meshes, all points, all histories of the mutable buffers.", "anchors": ["include/IntegrationTools/pfield/PField.hh:operator()", "include/IntegrationTools/pfield/Mesh.hh:basis_functions", "include/IntegrationTools/pfield/interpolation/Quad.hh"]}
{"id": "C24", "title": "2D field interpolates the nodal data", "statement": "On a conforming mesh (cells that touch share the nodes of their common corner or edge; no hanging nodes), evaluating the field at a mesh node used by a cell returns that node's data value.", "quantifier": "every conforming well-formed 2D mesh, every data, every node, every earlier history", "why_tests_cant": "All meshes and nodes.", "anchors": ["include/IntegrationTools/pfield/PField.hh:operator()"]}
{"id": "C25", "title": "2D field reproduces affine and bilinear data", "statement": "If the nodal data are samples of a + b*x + c*y + d*x*y then the field equals it at every point of the body and its gradient is (b + d*y, c + d*x).", "quantifier": "every well-formed 2D mesh, every affine/bilinear function, every point of the body", "why_tests_cant": "All meshes and functions.", "anchors": ["include/IntegrationTools/pfield/PField.hh:operator()", "include/IntegrationTools/pfield/PField.hh:grad"]}
{"id": "C26", "title": "2D field stays within the nodal data range", "statement": "At every point of the body the field value lies between any lower and upper bound of the nodal data.", "quantifier": "every well-formed 2D mesh, every data, every point of the body", "why_tests_cant": "All real points.", "anchors": ["include/IntegrationTools/pfield/PField.hh:operator()"]}
{"id": "C27", "title": "2D field is single-valued across shared edges", "statement": "When neighbouring cells share the nodes of their common edge, a point on the edge gets the same value from either cell, so the result does not depend on cell order.", "quantifier": "every conforming pair of cells, every point on the common edge", "why_tests_cant": "All geometries.", "anchors": ["include/IntegrationTools/pfield/Mesh.hh:basis_functions", "include/IntegrationTools/pfield/interpolation/Quad.hh:is_in_range"]}
{"id": "C28", "title": "3D field evaluation is the trilinear interpolant of the containing cell", "statement": "Evaluating a 3D scalar field at a point of the body returns the trilinear interpolation of a cell containing the point. (Violated: a cell above or below the point may be used; holds when every cell in the point's bin that matches in x and y also contains the point in z.)", "quantifier": "every well-formed 3D mesh, every point", "why_tests_cant": "Meshes with one layer of cells, or points away from bin overlaps, give the right answer.", "anchors": ["include/IntegrationTools/pfield/PField.hh:operator()", "include/IntegrationTools/pfield/interpolation/Hexahedron.hh:is_in_range", "include/IntegrationTools/pfield/Mesh.hh:basis_functions"]}
{"id": "C29", "title": "Evaluation at a point outside every cell does not depend on earlier calls", "statement": "Evaluating a field at a point in bin range but in no cell gives a result determined by the arguments. (Violated: the weights of the previous evaluation are silently reused.)", "quantifier": "every mesh, every uncovered point, every earlier history", "why_tests_cant": "A fresh field returns 0 there; only a history exposes the stale buffers.", "anchors": ["include/IntegrationTools/pfield/Mesh.hh:basis_functions", "include/IntegrationTools/pfield/PField.hh:operator()"]}
{"id": "C30", "title": "Evaluation outside the binned region throws and leaves the stored value", "statement": "Evaluating a field outside the binned region throws std::domain_error and the stored value (getter) is unchanged.", "quantifier": "every mesh, every coordinate outside the bin range", "why_tests_cant": "All coordinates.", "anchors": ["include/IntegrationTools/pfield/PField.hh:operator()", "include/IntegrationTools/datastruc/Bin.hh:indices"]}
{"id": "C31", "title": "Field evaluation is memory-safe", "statement": "Evaluating value, gradient or Hessian of a field over a well-formed mesh with data for every node never accesses its buffers, the data or the bins out of bounds, at any coordinate strictly inside the bin range.", "quantifier": "every well-formed mesh, every coordinate, every history", "why_tests_cant": "Out-of-bounds accesses need not crash.", "anchors": ["include/IntegrationTools/pfield/PField.hh:PField", "include/IntegrationTools/pfield/Mesh.hh:basis_functions", "include/IntegrationTools/pfield/Mesh.hh:max_bin_size"]}
{"id": "C32", "title": "2D field gradient and Hessian are derivatives of the interpolant", "statement": "At every point of the body grad(coord,di) and hess(coord,di,dj) are the partial derivatives of the bilinear interpolant of a cell containing the point.", "quantifier": "every well-formed 2D mesh, every data, every point, all directions", "why_tests_cant": "Derivatives at all points.", "anchors": ["include/IntegrationTools/pfield/PField.hh:grad", "include/IntegrationTools/pfield/PField.hh:hess", "include/IntegrationTools/pfield/Mesh.hh:grad_basis_functions", "include/IntegrationTools/pfield/Mesh.hh:hess_basis_functions"]}
{"id": "C33", "title": "Field getters return the last evaluation", "statement": "operator()(), grad(di) and hess(di,dj) of a field return the result of the most recent successful evaluation of that same component, and eval_grad/eval_hess refresh every component.", "quantifier": "every history of evaluations", "why_tests_cant": "Unbounded histories.", "anchors": ["include/IntegrationTools/pfield/PField.hh:eval_grad", "include/IntegrationTools/pfield/PField.hh:eval_hess", "include/IntegrationTools/pfield/PField.hh:operator()"]}
{"id": "C34", "title": "Mesh min/max are the bounding box of the points", "statement": "After reading points, min(i)/max(i) are the least and greatest i-th coordinate over all points.", "quantifier": "every non-empty point list", "why_tests_cant": "All point lists.", "anchors": ["include/IntegrationTools/pfield/Mesh.hh:read_vtk", "include/IntegrationTools/pfield/Mesh.hh:min", "include/IntegrationTools/pfield/Mesh.hh:max"]}
{"id": "C35", "title": "Reading a written vtk file recovers points, cells and fields", "statement": "Reading a file consisting of POINTS, CELLS, CELL_TYPES, POINT_DATA and SCALARS sections in the legacy ASCII layout yields exactly the listed points, cells and named scalar fields.", "quantifier": "every list of points, cells and fields", "why_tests_cant": "Unbounded files.", "anchors": ["include/IntegrationTools/pfield/Body.hh:read_vtk", "include/IntegrationTools/pfield/Mesh.hh:read_vtk"]}
{"id": "C36", "title": "Reading a vtk file terminates", "statement": "read_vtk returns or reports an error for every file. (Violated: if the file cannot be opened, or a number is malformed, the read loop never ends.)", "quantifier": "every file content, including a missing file", "why_tests_cant": "Non-termination cannot be observed by a test.", "anchors": ["include/IntegrationTools/pfield/Body.hh:read_vtk", "include/IntegrationTools/pfield/Mesh.hh:read_vtk"]}
{"id": "C37", "title": "find_scalar_field finds the first field of that name or throws", "statement": "find_scalar_field(name) returns the first field read with that name, and throws std::invalid_argument exactly when there is none.", "quantifier": "every list of fields and every name", "why_tests_cant": "All field lists.", "anchors": ["include/IntegrationTools/pfield/Body.hh:find_scalar_field"]}
{"id": "C38", "title": "Function handles are values: copies are independent", "statement": "Copying or assigning a PSimpleFunction/PFunction/PBasisSet gives an independent function: evaluating, reassigning or destroying one handle never changes what any other handle returns.", "quantifier": "every history of construct/copy/assign/set/evaluate/destroy over any number of handles", "why_tests_cant": "Aliasing errors need particular histories.", "anchors": ["include/IntegrationTools/pfunction/PSimpleFunction.hh:operator=", "include/IntegrationTools/pfunction/PFunction.hh:operator=", "include/IntegrationTools/pfunction/PBasisSet.hh:operator="]}
{"id": "C39", "title": "No double free, no leak, no use after free", "statement": "In any history in which no handle is assigned to itself, assigned from an empty handle, evaluated while empty or given a pointer another handle owns, no object is freed twice or used after free, and destroying all handles frees every object they own.", "quantifier": "every such history", "why_tests_cant": "Memory errors need particular histories and may be silent.", "anchors": ["include/IntegrationTools/pfunction/PSimpleFunction.hh:~PSimpleFunction", "include/IntegrationTools/pfunction/PSimpleFunction.hh:set", "include/IntegrationTools/pfunction/PFunction.hh:~PFunction", "include/IntegrationTools/pfunction/PFunction.hh:set"]}
{"id": "C40", "title": "Self-assignment and assignment from an empty handle are safe", "statement": "h = h and h = empty leave h usable. (Violated: self-assignment uses a freed object and assignment from an empty handle dereferences NULL.)", "quantifier": "every handle state", "why_tests_cant": "Undefined behaviour may appear to work.", "anchors": ["include/IntegrationTools/pfunction/PSimpleFunction.hh:operator=", "include/IntegrationTools/pfunction/PFunction.hh:operator="]}
{"id": "C41", "title": "Simple function getter returns the last evaluation", "statement": "operator()() of a PSimpleFunction returns the value of the most recent operator()(var)/eval(var); reading before any evaluation reads an uninitialised value.", "quantifier": "every history of evaluations", "why_tests_cant": "Unbounded histories.", "anchors": ["include/IntegrationTools/pfunction/PSimpleBase.hh:operator()", "include/IntegrationTools/pfunction/PSimpleFunction.hh:operator()"]}
{"id": "C42", "title": "Flexible function accepts exactly consistent derivative tables", "statement": "Constructing or setting a PFlexFunction succeeds iff the descriptions, gradients, Hessian rows and every Hessian row have as many entries as there are variables, else the program exits with status 1; after success every component can be evaluated. A default-constructed one has an empty name and no variables, and can be set like any other.", "quantifier": "every combination of list sizes", "why_tests_cant": "All sizes.", "anchors": ["include/IntegrationTools/pfunction/PFlexFunction.hh:check", "include/IntegrationTools/pfunction/PFlexFunction.hh:set"]}
{"id": "C43", "title": "Function getters return the last evaluation of that component", "statement": "For a PFlexFunction (and the generated functions of the same layout) operator()(), grad(di), hess(di,dj) return the most recent evaluation of that component, and eval_grad/eval_hess refresh every component.", "quantifier": "every history of evaluations, any number of variables", "why_tests_cant": "Unbounded histories.", "anchors": ["include/IntegrationTools/pfunction/PFlexFunction.hh:eval_grad", "include/IntegrationTools/pfunction/PFlexFunction.hh:eval_hess", "tests/testlib/MyFunc.hh"]}
{"id": "C44", "title": "Undefined members throw instead of returning garbage", "statement": "Calling a member that a function class does not override throws std::runtime_error and does not return a value.", "quantifier": "every unoverridden member and every argument", "why_tests_cant": "All arguments.", "anchors": ["include/IntegrationTools/pfunction/PFuncBase.hh:undefined", "include/IntegrationTools/pfunction/PSimpleBase.hh:undefined"]}
{"id": "C45", "title": "Basis set evaluation fills every term", "statement": "After eval(x)/eval_grad(x)/eval_hess(x) each getter term returns phi_i(x)/phi_i'(x)/phi_i''(x); evaluating a single term changes only that stored term; where the class does not define the function, the program ends.", "quantifier": "every basis set, size, point and history", "why_tests_cant": "Unbounded sizes and histories.", "anchors": ["include/IntegrationTools/pfunction/PBasisSetBase.hh:eval", "include/IntegrationTools/pfunction/PBasisSetBase.hh:operator()"]}
{"id": "C46", "title": "Series value is the tensor-product sum", "statement": "series(x) equals sum over all tensor indices t of coeff(t) * prod_i phi_{i,t_i}(x_i), whatever was evaluated before.", "quantifier": "every number of variables, basis sets, sizes, coefficients, points and histories", "why_tests_cant": "Unbounded orders and sizes.", "anchors": ["include/IntegrationTools/pfunction/PSeriesFunction.hh:operator()", "include/IntegrationTools/pfunction/PSeriesFunction.hh:calc_val"]}
{"id": "C47", "title": "Series gradient via eval_grad is the derivative", "statement": "After eval_grad(x), grad(di) equals sum_t coeff(t) * phi'_{di,t_di}(x_di) * prod_{i != di} phi_{i,t_i}(x_i), which is the partial derivative of series(x) when each phi' is the derivative of phi.", "quantifier": "every order, basis, coefficients, point, direction, history", "why_tests_cant": "Unbounded orders; derivatives.", "anchors": ["include/IntegrationTools/pfunction/PSeriesFunction.hh:eval_grad", "include/IntegrationTools/pfunction/PSeriesFunction.hh:calc_grad_val"]}
{"id": "C48", "title": "Series Hessian via eval_hess is the second derivative and symmetric", "statement": "After eval_hess(x), hess(di,dj) equals the second partial derivative formula (phi'' on the diagonal, phi'*phi' off it), is symmetric and is the derivative of the gradient.", "quantifier": "every order, basis, coefficients, point, pair of directions, history", "why_tests_cant": "Unbounded orders; derivatives.", "anchors": ["include/IntegrationTools/pfunction/PSeriesFunction.hh:eval_hess", "include/IntegrationTools/pfunction/PSeriesFunction.hh:calc_hess_val"]}
{"id": "C49", "title": "Single-shot series.grad(x,di) / hess(x,di,dj) are the derivatives at x", "statement": "series.grad(x,di) and series.hess(x,di,dj) return the derivatives at x for every x. (Violated: the other directions are not evaluated at x; values stored by an earlier evaluation are used, and x_i truncated to int is used as a term index, possibly out of bounds.)", "quantifier": "every series, point, direction, history", "why_tests_cant": "It returns the right value whenever the series was just evaluated at the same point with small non-negative coordinates, as in the repository's test.", "anchors": ["include/IntegrationTools/pfunction/PSeriesFunction.hh:grad", "include/IntegrationTools/pfunction/PSeriesFunction.hh:hess", "include/IntegrationTools/pfunction/PBasisSet.hh:operator()"]}
{"id": "C50", "title": "A series used through PFunction provides derivatives", "statement": "f = series; f.grad(x,di), f.hess(x,di,dj), f.grad(di), f.hess(di,dj) give the series' derivatives. (Violated: the members do not override the base members, so every such call throws.)", "quantifier": "every series and every argument", "why_tests_cant": "A test on the concrete class never goes through the base class.", "anchors": ["include/IntegrationTools/pfunction/PSeriesFunction.hh:grad", "include/IntegrationTools/pfunction/PFunction.hh:grad", "include/IntegrationTools/pfunction/PFuncBase.hh:grad"]}
{"id": "C51", "title": "Tensor basis evaluation is the product of factors", "statement": "basis(t,x), basis_grad(t,x,di), basis_hess(t,x,di,dj) are the products of the basis factors with the factor in direction di (dj) replaced by its derivative; basis(j,t,x) and its derivatives are those of the one function; eval_basis(x,j) evaluates only basis set j; print_basis and its derivatives list all products with their indices.", "quantifier": "every order, index, point, direction", "why_tests_cant": "Unbounded orders.", "anchors": ["include/IntegrationTools/pfunction/PSeriesFunction.hh:basis", "include/IntegrationTools/pfunction/PSeriesFunction.hh:basis_grad", "include/IntegrationTools/pfunction/PSeriesFunction.hh:basis_hess"]}
{"id": "C52", "title": "set() shapes the coefficients and zeroes them", "statement": "After set(basis_sets) with a non-empty list, coeff() has one dimension per basis set with extent its size, all coefficients are 0, and the series evaluates to 0 everywhere; after clear() it has no variables, coefficients, basis sets or stored derivatives and its stored value is 0.", "quantifier": "every previous state and every list of basis sets", "why_tests_cant": "All histories.", "anchors": ["include/IntegrationTools/pfunction/PSeriesFunction.hh:set", "include/IntegrationTools/pfunction/PSeriesFunction.hh:clear"]}
{"id": "C53", "title": "Coefficient text round trip", "statement": "read_coeff of the text printed by print_coeff restores every coefficient, for any value format whose text reads back as the same value; a file with fewer lines sets the coefficients it has lines for, keeps the others and fails the stream.", "quantifier": "every shape and coefficients", "why_tests_cant": "Unbounded shapes.", "anchors": ["include/IntegrationTools/pfunction/PSeriesFunction.hh:print_coeff", "include/IntegrationTools/pfunction/PSeriesFunction.hh:read_coeff"]}
{"id": "C54", "title": "Series is linear in its coefficients", "statement": "With fixed basis sets, the value at x of a series with coefficients a*c + b*d is a times that with c plus b times that with d.", "quantifier": "every order, sizes, coefficients, point", "why_tests_cant": "Unbounded.", "anchors": ["include/IntegrationTools/pfunction/PSeriesFunction.hh:calc_val"]}
{"id": "C55", "title": "The first piece containing the point is the one evaluated", "statement": "A piecewise function's value, gradient and Hessian at x are those of the first piece (in list order) all of whose conditions hold at x.", "quantifier": "every list of pieces, conditions, point and history", "why_tests_cant": "Unbounded lists.", "anchors": ["include/IntegrationTools/piecewise/PPieceWiseFuncBase.hh:piece", "include/IntegrationTools/piecewise/Piece.hh:in_piece"]}
{"id": "C56", "title": "Outside every piece evaluation throws domain_error and keeps the current piece", "statement": "in_piece(x) is false iff evaluation at x throws std::domain_error; the throwing evaluation does not change which piece the getters refer to nor the stored values.", "quantifier": "every list of pieces, point and history", "why_tests_cant": "All points and histories.", "anchors": ["include/IntegrationTools/piecewise/PPieceWiseFuncBase.hh:piece", "include/IntegrationTools/piecewise/PPieceWiseFuncBase.hh:in_piece"]}
{"id": "C57", "title": "Piecewise getters refer to the piece of the last evaluation", "statement": "After a successful eval/eval_grad/eval_hess at x, the corresponding getters return that piece's value/derivatives at x.", "quantifier": "every history followed by a successful evaluation", "why_tests_cant": "Unbounded histories.", "anchors": ["include/IntegrationTools/piecewise/PPieceWiseFuncBase.hh:operator()", "include/IntegrationTools/piecewise/PPieceWiseFuncBase.hh:eval_grad"]}
{"id": "C58", "title": "Piecewise simple functions agree with the piecewise function", "statement": "simplefunction(), grad_simplefunction(di), hess_simplefunction(di,dj) evaluated at x return what operator()(x), grad(x,di), hess(x,di,dj) return, and throw domain_error at the same points; their in_piece(x) and piece(x) tell whether and which piece applies.", "quantifier": "every list of pieces and every point", "why_tests_cant": "All points.", "anchors": ["include/IntegrationTools/piecewise/PPieceWiseFuncBase.hh:simplefunction", "include/IntegrationTools/piecewise/PPieceWiseSimpleBase.hh:eval"]}
{"id": "C59", "title": "Printed piecewise forms list every piece and condition in the requested notation", "statement": "csrc(), sym() and latex() of a piece/piecewise function contain each expression and condition, in order, in that notation. (Violated by latex(): with three or more conditions the middle ones are printed in sym notation.)", "quantifier": "every list of pieces and conditions", "why_tests_cant": "Unbounded lists; the repository's pieces have at most two conditions.", "anchors": ["include/IntegrationTools/piecewise/SimplePiece.hh:latex", "include/IntegrationTools/piecewise/SimplePiece.hh:csrc", "include/IntegrationTools/piecewise/PPieceWiseSimpleBase.hh:csrc"]}
{"id": "C60", "title": "Library collection tables stay rectangular and duplicate-free", "statement": "However many headers are scanned, every (input type, output type) table has one cell per pair of known types, no type is listed twice, and no name appears twice in one cell; a repeated name ends the program with status 1.", "quantifier": "every sequence of scanned class declarations", "why_tests_cant": "Unbounded inputs.", "anchors": ["src/lw/lw.cpp:Collection", "src/lw/lw.cpp:add_intype", "src/lw/lw.cpp:add_outtype", "src/lw/lw.cpp:scanline_for_class"]}
{"id": "C61", "title": "Every checkout function declared in the header is defined in the source and vice versa", "statement": "The set of checkout signatures written to PLibrary.hh equals the set of those defined in PLibrary.cc.", "quantifier": "every sequence of scanned declarations and every list of variable container types", "why_tests_cant": "Unbounded inputs; a mismatch is only a link error for some inputs.", "anchors": ["src/lw/lw.cpp:write_header", "src/lw/lw.cpp:write_source"]}
{"id": "C62", "title": "checkout(name) yields the class of that name or throws", "statement": "The generated checkout for a signature constructs the class registered under name for that signature, and throws std::runtime_error exactly when no such class was scanned.", "quantifier": "every collection, signature, name", "why_tests_cant": "Unbounded libraries.", "anchors": ["src/lw/lw.cpp:write_source"]}
{"id": "C63", "title": "Only user headers are scanned", "statement": "A directory entry is scanned iff its name ends in .hh and it is not one of the five library header names.", "quantifier": "every file name", "why_tests_cant": "All strings.", "anchors": ["src/lw/lw.cpp:is_header", "src/lw/lw.cpp:is_generated_header"]}
{"id": "C64", "title": "Monomial basis set is x^i with its derivatives", "statement": "Monomial term i (i < 30) evaluates to x^i, its grad to i*x^(i-1) and its hess to i*(i-1)*x^(i-2), for every x; grad and hess are the true derivatives.", "quantifier": "all 30 terms, every real x", "why_tests_cant": "All reals.", "anchors": ["tests/testlib/Monomial.hh"]}
{"id": "C65", "title": "Chebyshev basis set is T_i with its derivatives", "statement": "Chebyshev term i (i < 30) is the Chebyshev polynomial T_i (T_0=1, T_1=x, T_{i+1}=2xT_i-T_{i-1}), and grad/hess are its first and second derivatives, for every x.", "quantifier": "all 30 terms, every real x", "why_tests_cant": "All reals.", "anchors": ["tests/testlib/Chebyshev.hh"]}
{"id": "C66", "title": "Example functions' derivatives are correct", "statement": "For Quadratic and MyFunc every grad component is the partial derivative of the value and every hess component the partial derivative of the grad component, at every point. Copies and assigned objects compute the same, and the name, the number of variables, their names and descriptions stay those of the class; the parts handed out as simple functions (value, each derivative) report the names of their classes.", "quantifier": "every point, every component, every history", "why_tests_cant": "All reals.", "anchors": ["tests/testlib/Quadratic.hh", "tests/testlib/MyFunc.hh"]}
{"id": "C67", "title": "Basis set resize keeps evaluated terms", "statement": "Resizing a Monomial/Chebyshev basis set to N <= 30 keeps the stored values and functions of the first min(old,N) terms; N > 30 exits with status 1.", "quantifier": "every old and new size and stored state", "why_tests_cant": "All sizes and states.", "anchors": ["tests/testlib/Monomial.hh:resize", "tests/testlib/Monomial.hh:copy", "tests/testlib/Monomial.hh:construct"]}
{"id": "C68", "title": "resize keeps the common prefix of the values", "statement": "resize(dim) to a usable shape keeps the value at every linear position below both the old and the new volume, and value-initialises every other position.", "quantifier": "every old array, every usable new shape, every linear position", "why_tests_cant": "Unbounded shapes and contents.", "anchors": ["include/IntegrationTools/datastruc/PNDArray.hh:resize"]}
{"id": "C69", "title": "A failed resize leaves a consistent array", "statement": "If resize throws, the array's shape and storage still agree. (Violated: a negative volume throws length_error after the extents, order and volume were already replaced; only the stored values are unchanged.)", "quantifier": "every array and every extents list for which resize throws", "why_tests_cant": "Needs every state in which the exception can be thrown.", "anchors": ["include/IntegrationTools/datastruc/PNDArray.hh:resize"]}
{"id": "C70", "title": "3D field reproduces trilinear data", "statement": "If the nodal data are samples of a polynomial that is affine in each of x, y and z, the 3D field equals it at every point of the body and its gradient is the polynomial's gradient.", "quantifier": "every well-formed 3D mesh, every trilinear polynomial, every point of the body, every earlier history", "why_tests_cant": "Every mesh, polynomial and point.", "anchors": ["include/IntegrationTools/pfield/PField.hh:operator()", "include/IntegrationTools/pfield/PField.hh:grad"]}
{"id": "C71", "title": "Inserting into a bin always ends", "statement": "add_once and add_range return, throw, or are stopped by undefined behaviour for every coordinates, but never loop for ever, even for a lower corner above the upper corner or coordinates outside the bins.", "quantifier": "every bin made with non-negative numbers of bins, every history of insertions, every further insertion", "why_tests_cant": "Non-termination cannot be observed by a test, and every coordinate pair counts.", "anchors": ["include/IntegrationTools/datastruc/Bin.hh:add_range", "include/IntegrationTools/datastruc/Bin.hh:add_once"]}
{"id": "C72", "title": "Managing a PFlexFunction works", "statement": "clear() gives the state of a default-constructed function, p = q makes p equal to q, and copying gives an equal function. (Violated: clear() dereferences NULL for every function, operator= never returns a value, a default-constructed function cannot be copied; copying a function with a value part works.)", "quantifier": "every pair of PFlexFunctions", "why_tests_cant": "Undefined behaviour may look harmless in a test run; the claim is about every state.", "anchors": ["include/IntegrationTools/pfunction/PFlexFunction.hh:clear", "include/IntegrationTools/pfunction/PFlexFunction.hh:operator="]}
{"id": "C73", "title": "A series used as a function reports its variables", "statement": "size(), name() and var_name(i) of a series used through PFuncBase/PFunction describe its variables. (Violated: they are never set; size() is 0 for every series and var_name(i) reads out of bounds.)", "quantifier": "every series in every state", "why_tests_cant": "Holds for every state, not for a sampled one.", "anchors": ["include/IntegrationTools/pfunction/PSeriesFunction.hh:PSeriesFunction", "include/IntegrationTools/pfunction/PFuncBase.hh:size"]}
{"id": "C74", "title": "A piecewise function reports the variables of its pieces", "statement": "size(), name() and var_name(i) of a piecewise function built from pieces describe the variables of the pieces. (Violated: the constructor never sets them; size() is 0 whatever the pieces. A single Piece reports what its expression reports.)", "quantifier": "every list of pieces, every history of calls on a piece", "why_tests_cant": "Holds for every list of pieces and history, not for a sampled one.", "anchors": ["include/IntegrationTools/piecewise/PPieceWiseFuncBase.hh:PPieceWiseFuncBase", "include/IntegrationTools/piecewise/Piece.hh:Piece"]}
{"id": "C75", "title": "Every checkout function is written once", "statement": "No checkout signature is declared or defined twice, so the generated library compiles. (Violated: with a type given for VarContainer that is also the input type of a scanned class, or given twice, a function is written twice.)", "quantifier": "every set of headers, every list of variable container types", "why_tests_cant": "Every library and type list; a test compiles one.", "anchors": ["src/lw/lw.cpp:write_header", "src/lw/lw.cpp:write_source"]}
{"id": "C76", "title": "A class declaration is recognised, with its name and types", "statement": "A header line declaring class NAME : public BASE< IN, OUT > is recognised whatever the blanks, with exactly that base class, name, input and output type; and what is recognised is there. (Violated: blanks before ',' and '>' become part of the types.)", "quantifier": "every line of the form, every placement of blanks", "why_tests_cant": "All lines.", "anchors": ["src/lw/lw.cpp:scanline_for_class"]}
{"id": "C77", "title": "What the shipped functions print is what they compute", "statement": "The strings csrc(), sym() and latex() of every monomial, Chebyshev polynomial, Quadratic, MyFunc and MyPieceWiseFunc component (and condition), read as C++, symbolic and LaTeX expressions, denote the function that the object evaluates, at every point.", "quantifier": "every term, component, string and point", "why_tests_cant": "Equality of two functions at every point; a test compares a few.", "anchors": ["tests/testlib/Monomial.hh", "tests/testlib/Chebyshev.hh", "tests/testlib/Quadratic.hh", "tests/testlib/MyFunc.hh", "tests/testlib/MyPieceWiseFunc.hh"]}
{"id": "C78", "title": "The shipped piecewise function is the function it describes", "statement": "MyPieceWiseFunc(x, y) is defined everywhere; each point lies in exactly one of its three pieces and piece() says which; its value there is x (left half plane), x^2+y^2 (half disc of radius 1/2) or r-1/4 (the rest, r the distance from the origin), its gradient is the derivative of the value (also across the circle, where the disc and the outer piece meet) and its Hessian the derivative of the gradient inside the pieces; it reports its name and its two variables, and so do the classes of its pieces; whatever was called before.", "quantifier": "every point of the plane, every history of earlier calls", "why_tests_cant": "A statement about derivatives at every point and every history; a test compares a few points.", "anchors": ["tests/testlib/MyPieceWiseFunc.hh"]}
{"id": "C79", "title": "Generated functions copy and assign as values", "statement": "Objects of a generated function class can be constructed, copied, assigned, evaluated and destroyed in any order, each behaving as a value of its own, a copy or assigned object being equal to its source. (Violated: the copy constructor makes a fresh object, losing the stored value; operator= returns nothing, leaks the old object and shares the new one, so both destructors free it.)", "quantifier": "every history of construct, copy, assign, call and destroy over any number of objects", "why_tests_cant": "Ownership errors depend on the history; a test runs one.", "anchors": ["tests/testlib/MyPieceWiseFunc.hh:MyPieceWiseFunc_piece0_f", "src/lw/lw.cpp"]}
{"id": "C80", "title": "Objects behind C pointer variables behave as values", "statement": "Through the C interface, with new into empty variables, calls on objects and delete of anything (also twice), each pointer variable behaves as if it were its object: calls on one do not affect another, a new that throws leaves the variable empty, nothing is deleted twice and when every variable is deleted nothing is left. Once an object has two variables and was deleted through one, everything through the other is undefined.", "quantifier": "every history of declarations, new, delete and calls over any number of variables, every class of objects", "why_tests_cant": "Ownership depends on the history; a test runs one.", "anchors": ["src/c/PExtern.cc:PFunction_dsd_new", "src/c/PExtern.cc:PFunction_dsd_delete", "src/c/PExtern.cc:PSeriesFunction_dsis_delete"]}
{"id": "C81", "title": "The C interface to functions computes what C++ computes", "statement": "PFunction_dsd_calc, _calc_grad, _calc_hess store the component's value at the given point or pass on its exception, after any history of calls; _eval... succeed exactly when it has one; _get... return the component's value where it was last evaluated; _size is the number of variables.", "quantifier": "every function, every history of calls, every point and component", "why_tests_cant": "Every history and point.", "anchors": ["src/c/PExtern.cc:PFunction_dsd_calc", "src/c/PExtern.cc:PFunction_dsd_get", "src/c/PExtern.cc:PFunction_dsd_eval_grad"]}
{"id": "C82", "title": "Names pass through the C interface intact", "statement": "name, var_name, var_description and description store the whole text in the client's buffer and write nowhere else. (Violated: the client cannot give the size of the buffer; the text is stored exactly when the buffer has more characters than the text, and otherwise the call writes behind it.)", "quantifier": "every text, every buffer size, every history of calls", "why_tests_cant": "Every text and buffer size; a short name in a large buffer passes.", "anchors": ["src/c/PExtern.cc:PFunction_dsd_name", "src/c/PExtern.cc:PFunction_dsd_var_description", "src/c/PExtern.cc:PBasisSet_dd_name"]}
{"id": "C83", "title": "The C interface to series computes the series", "statement": "PSeriesFunction_dsis_setnew and _set (on a series in any state), given basis sets checked out of the library by name and used in any way, give a series over their functions with zero coefficients; after any calls other than clear, order, dim, volume, linear_index and tensor_indices describe its shape, a coefficient set by tensor or linear index is the one read and no other changes, calc/eval+get store the sum of the series, eval_grad+get_grad and eval_hess+get_hess the sums of its first and second derivatives; calc_basis and eval_basis+get_basis (and for derivatives) give the single basis functions and change nothing else that can be got; calc_tensor_basis and get_tensor_basis (and for derivatives) give their products.", "quantifier": "every library whose classes have the names they are registered under, all lists of basis sets, every history of calls, every point", "why_tests_cant": "All shapes, histories and points.", "anchors": ["src/c/PExtern.cc:PSeriesFunction_dsis_setnew", "src/c/PExtern.cc:PSeriesFunction_dsis_set", "src/c/PExtern.cc:PSeriesFunction_dsis_calc", "src/c/PExtern.cc:PSeriesFunction_dsis_eval_hess"]}
{"id": "C84", "title": "The Python classes compute what C++ computes", "statement": "Every method of PFunc_dsd, PSimple_dsd, PSimple_dd, PBasisSet_dd and PSeries_dsis returns what the C++ member returns, after any history of method calls. (Violated: get_grad and get_hess of PFunc_dsd call the wrong C function; name, var_name, var_description and description read an address made of the characters of the name; linear_index of a series always raises AttributeError; calc_basis_grad and calc_basis_hess pass too many arguments; a series without basis sets cannot be made.)", "quantifier": "every function, series, history of method calls, point and component", "why_tests_cant": "Every history and point; most methods work in a short test.", "anchors": ["src/python/pfunction/pfunc_dsd.py", "src/python/pfunction/psimple_dsd.py", "src/python/pfunction/pbasisset_dd.py", "src/python/pfunction/pseries_dsis.py"]}
{"id": "C85", "title": "Coefficients pass between C++ and Python through text files", "statement": "print_coeff writes the same text from Python and C++; read_coeff of either restores every coefficient of a series of the same shape and leaves the rest of the file; in Python a file with too few lines raises IndexError.", "quantifier": "every shape and coefficients, every number and string format that reads back", "why_tests_cant": "Unbounded shapes; all coefficient values.", "anchors": ["src/python/pfunction/pseries_dsis.py:print_coeff", "src/python/pfunction/pseries_dsis.py:read_coeff", "include/IntegrationTools/pfunction/PSeriesFunction.hh:print_coeff"]}
{"id": "C86", "title": "The C interface to basis sets and simple functions computes what C++ computes", "statement": "A basis set checked out by name and size has the functions of its class; an unknown name throws std::runtime_error, a size above the class's limit ends the program; after any calls size, calc, calc_grad, calc_hess, eval+get, eval_grad+get_grad, eval_hess+get_hess give the number of functions, their values and derivatives; resize to an allowed size gives that many functions; max_size is the limit, never less than the size. For simple functions calc gives the value and get the value at the point of the last calc that gave one. (Violated: for a class without a limit max_size gives -1.)", "quantifier": "every library, class, size, history of calls, point and term", "why_tests_cant": "Every history and point.", "anchors": ["src/c/PExtern.cc:PBasisSet_dd_calc", "src/c/PExtern.cc:PBasisSet_dd_max_size", "src/c/PExtern.cc:PBasisSet_dd_resize", "src/c/PExtern.cc:PSimpleFunction_dsd_calc"]}
{"id": "C87", "title": "Basis sets and series behind C pointers are independent values", "statement": "A client of the C interface that keeps variables for basis sets and for series, and makes series from the basis sets in its variables, observes that each variable is its object and a series has copies of its basis sets: evaluating, resizing or deleting the basis sets afterwards does not change the series, and nothing is leaked or deleted twice.", "quantifier": "every legal history over any number of variables of both kinds, every library", "why_tests_cant": "Ownership depends on the history; a test runs one.", "anchors": ["src/c/PExtern.cc:PSeriesFunction_dsis_setnew", "src/c/PExtern.cc:PSeriesFunction_dsis_set", "src/c/PExtern.cc:PBasisSet_dd_new", "src/c/PExtern.cc:PBasisSet_dd_delete"]}
{"id": "C88", "title": "Bodies and fields behind C pointers are independent values", "statement": "A client of the C interface that keeps variables for bodies and for fields (views obtained by name, or clones) observes that each body variable is a body of its own, a view is the field of its body and a clone a field of its own over the same mesh, and that bodies and clones can be deleted without leak or double delete. (Violated: deleting a body that has cells is undefined, as is deleting a view.)", "quantifier": "every legal history over any number of body and field variables, every kind of file and call", "why_tests_cant": "Ownership depends on the history; a test runs one.", "anchors": ["src/c/PExtern.cc:Body2D_new", "src/c/PExtern.cc:Body2D_delete", "src/c/PExtern.cc:ScalarField2D", "include/IntegrationTools/pfield/Mesh.hh:~Mesh", "include/IntegrationTools/pfield/PField.hh:clone"]}
{"id": "C89", "title": "The C interface to fields computes the fields of the files", "statement": "However a client reads vtk files into bodies, obtains fields by name, clones and evaluates them through PFunction_dsd_*, a variable denoting the field NAME of a file reports NAME, its number of variables and their names, gives at every point of the body the value, gradient and Hessian of the interpolant (bilinear in 2D) of the file's data, throws std::domain_error outside the binned region, and the getters return what was computed last.", "quantifier": "all vtk files of rectangular meshes, all legal histories, every point of the body, every component", "why_tests_cant": "All files, histories and points; a test reads one file.", "anchors": ["src/c/PExtern.cc:Body2D_new", "src/c/PExtern.cc:ScalarField2D", "src/c/PExtern.cc:Body3D_new", "src/c/PExtern.cc:ScalarField3D", "src/c/PExtern.cc:PFunction_dsd_calc", "include/IntegrationTools/pfield/Body.hh:find_scalar_field", "include/IntegrationTools/pfield/PField.hh"]}
{"id": "C90", "title": "A body can read more than one file", "statement": "After reading a further vtk file into a body, its fields and the earlier ones evaluate to the interpolants of their own files. (Violated: points and fields are appended, but cells are numbered and placed as if the file were the first: reading the same file twice doubles every field at every point, cells of another file are placed at the points of the first, and views of earlier fields access memory outside their buffers.)", "quantifier": "every body, every file, every field and point", "why_tests_cant": "All meshes, fields and points; a test reads each body once.", "anchors": ["include/IntegrationTools/pfield/Body.hh:read_vtk", "include/IntegrationTools/pfield/Mesh.hh:read_vtk"]}
{"id": "C91", "title": "A coordinate stores and prints its components", "statement": "A coordinate of dimension d has size d; component i is the value assigned to it last; operator<< writes the components in order, separated by single blanks, and reading as many numbers from that text gives the components again. Components out of the dimension, or never assigned, are undefined to read.", "quantifier": "every dimension, every sequence of assignments, every number format that reads back", "why_tests_cant": "All dimensions, assignments and values.", "anchors": ["include/IntegrationTools/pfield/Coordinate.hh:operator[]", "include/IntegrationTools/pfield/Coordinate.hh:operator<<", "include/IntegrationTools/pfield/Coordinate.hh:size"]}
{"id": "C92", "title": "Python bodies and fields compute the fields of the files", "statement": "A Python program may make Body2D/Body3D objects from vtk files and PFunc_dsd(name, body2d=...) objects for their fields, and call methods in any order: size is the dimension, calc, calc_grad, calc_hess return the value and derivatives of the interpolant of the file's data at every point of the body, get returns what calc or eval computed last, a point outside the bins ends the interpreter; name, get_grad, get_hess and delete work. (Violated: the last four are undefined for every field and body.)", "quantifier": "all vtk files of rectangular meshes, all programs, every field, point and component", "why_tests_cant": "All files, programs and points.", "anchors": ["src/python/pfunction/body.py", "src/python/pfunction/pfunc_dsd.py"]}
{"id": "C93", "title": "Bins work in floating-point arithmetic", "statement": "In IEEE arithmetic (every result rounded) a Bin still keeps items: contents(c) returns the items put in c's computed bin in call order, a coordinate outside the computed limits is refused with std::domain_error and changes nothing, and an item added over a box is found at every coordinate of the box. Every coordinate within the limits has a bin. (Violated: with 17 bins of width 0.1 from 0 in binary64, 1.7 is below the computed limit but its bin number is 17: out of bounds. True up to a few roundoffs below the limit.)", "quantifier": "every rounding, every grid, every history of insertions, every coordinate", "why_tests_cant": "All doubles, all grids and histories; the exact-arithmetic proof does not cover rounding.", "anchors": ["include/IntegrationTools/datastruc/Bin.hh:indices", "include/IntegrationTools/datastruc/Bin.hh:add_range", "include/IntegrationTools/datastruc/Bin.hh:contents"]}
{"id": "C94", "title": "Field values are right in floating-point arithmetic", "statement": "In IEEE arithmetic (every result rounded, unit roundoff u) every mesh of rectangular cells whose extents are resolved by the arithmetic is read without an error; at every floating-point coordinate of the body, after any history of calls, the value of a field is within 64 u max|corner values| of the bilinear interpolant of a cell containing the point (of every such cell, when neighbours share corners); well outside the body every call throws std::domain_error.", "quantifier": "every rounding with u <= 1/64 (binary32, binary64), all meshes, fields, histories and floating-point coordinates", "why_tests_cant": "All doubles, meshes and histories; the exact-arithmetic proof does not cover rounding.", "anchors": ["include/IntegrationTools/pfield/PField.hh:operator()", "include/IntegrationTools/pfield/Mesh.hh:basis_functions", "include/IntegrationTools/pfield/interpolation/Quad.hh", "include/IntegrationTools/datastruc/Bin.hh:add_range"]}
{"id": "C95", "title": "Nodal values are exact in floating-point arithmetic", "statement": "On a mesh whose cells share corners, the value of a field at a node of a cell is exactly the node's data value, in every IEEE arithmetic and after any history: no rounding error at nodes.", "quantifier": "every rounding, mesh, field, history and node", "why_tests_cant": "All doubles and meshes.", "anchors": ["include/IntegrationTools/pfield/PField.hh:operator()", "include/IntegrationTools/pfield/interpolation/Quad.hh"]}
{"id": "C96", "title": "Field derivatives are right in floating-point arithmetic", "statement": "At every floating-point coordinate of the body grad(c, di) is within 96 u max|corner values|/h_di of the slope of the bilinear interpolant of a cell containing the point, hess(c, di, dj) within 96 u max|corner values|/(h_0 h_1) of its mixed derivative, and the pure second derivatives are exactly 0. (Violated on cell edges: with one cell from -3 to 2.6 in binary64, the gradient of a constant field at the edge is about 0.18, because the rounded cell extent excludes the edge from the cell's bins. True at every coordinate within the rounded extents, in particular at every coordinate of the cell's interior one relative roundoff away from its sides.)", "quantifier": "every rounding, mesh, field, history and coordinate", "why_tests_cant": "All doubles and meshes; whether an edge is affected depends on the last bit of the coordinates.", "anchors": ["include/IntegrationTools/pfield/PField.hh:grad", "include/IntegrationTools/pfield/PField.hh:hess", "include/IntegrationTools/pfield/interpolation/Quad.hh"]}
{"id": "C97", "title": "A field is a PFunction", "statement": "Fields of a body used as PFuncBase objects, with double* points, in any order: a field always reports its name and its variables x, y (and z); operator()(var), grad(var, di), hess(var, di, dj) give what a body read afresh with that single field gives; eval, eval_grad, eval_hess at a point of the binned region return normally and the getters then return those values, in every direction; outside the bins they throw std::domain_error; the simple functions a field does not have throw std::runtime_error.", "quantifier": "every legal mesh and fields, every history of calls on them, every point and direction", "why_tests_cant": "Every history and point; generic code only sees the base class.", "anchors": ["include/IntegrationTools/pfield/PField.hh:eval_grad", "include/IntegrationTools/pfield/PField.hh:eval_hess", "include/IntegrationTools/pfunction/PFuncBase.hh"]}
{"id": "C98", "title": "A Python object is one C++ object, under all its names, until it is deleted", "statement": "A Python program that makes PSimple_dd, PSimple_dsd, PFunc_dsd, PBasisSet_dd and PSeries_dsis objects, gives them any number of names, deletes them (even twice) and calls methods observes values: names of the same object share it, other objects are independent, a series has copies of the basis sets in its list; there is exactly one C++ object for every object not deleted. A name that is not in the library ends the program with a message; an object no variable names any more is freed. (The last two are violated: an unknown name is a C++ exception that ends the interpreter before the message, and without delete() the C++ object stays for ever.)", "quantifier": "every program over any number of objects and names, every library, class, argument and method", "why_tests_cant": "Ownership depends on the program; a test runs one.", "anchors": ["src/python/pfunction/psimple_dd.py:__init__", "src/python/pfunction/psimple_dsd.py:delete", "src/python/pfunction/pfunc_dsd.py:__init__", "src/python/pfunction/pbasisset_dd.py:delete", "src/python/pfunction/pseries_dsis.py:__init__", "src/python/pfunction/pseries_dsis.py:set"]}
{"id": "C99", "title": "The generated library is C++ text that declares what it defines and constructs what was asked for", "statement": "For every set of scanned directories and types, PLibrary.hh and PLibrary.cc can be read as C++: include guards, the includes, balanced namespaces, and nothing but checkout functions in PRISMS::PLibrary; the header declares exactly the functions the source defines; calling a function with a name assigns to its parameter the wrapped or newly allocated object of the class declared under that name (for basis sets of the requested size), with the right template argument, or throws std::runtime_error saying what was not found; every declared class can be had this way, and there is no function without a class.", "quantifier": "every set of headers, types and names (free of quotes, backslashes and newlines)", "why_tests_cant": "All sets of headers; a test compiles the library of one.", "anchors": ["src/lw/lw.cpp:write_header", "src/lw/lw.cpp:write_source"]}
{"id": "C100", "title": "A run of lw writes the library and nothing else", "statement": "A run with valid options writes PLibrary.hh and PLibrary.cc for the classes declared in the given directories, changes no other file, and ends with status 0, whatever order directories are listed in at each reading, also when the location is itself scanned or holds an earlier library; --help, --version and bad options change nothing. A run that does not write the library ends with a status other than 0 and leaves an earlier library as it was. (The last is violated: a class declared twice or a missing directory leaves an empty PLibrary.hh, a missing location is not noticed, and a compiler that fails with --compile is not either.)", "quantifier": "every state of the directories, every listing order, all options", "why_tests_cant": "All directories, orders and options; a test runs on one.", "anchors": ["src/lw/lw.cpp:main", "src/lw/lw.cpp:write_header", "src/lw/lw.cpp:Collection"]}
{"id": "C101", "title": "The generated source includes the headers of the classes it constructs", "statement": "After a run of lw, an include of PLibrary.cc finds (in the location or the scanned directories, in order) the very file that declares the class. (Violated for two headers with the same name in different directories: included once, only the first is found.)", "quantifier": "every set of directories and headers", "why_tests_cant": "All sets of directories.", "anchors": ["src/lw/lw.cpp:scanfile", "src/lw/lw.cpp:write_source", "src/lw/lw.cpp:main"]}
{"id": "C102", "title": "Series are right in floating-point arithmetic", "statement": "In IEEE arithmetic (every product and sum rounded, unit roundoff u), with basis functions that are themselves computed with errors: after any history of calls f(x), and after eval_grad(x), eval_hess(x) every grad(di) and hess(di,dj), differs from the series over the exact basis functions by at most sum |T_ij..| ((1+u)^n prod(|phi|+e) - prod|phi|), n the number of coefficients plus variables (about n u times the sum of the absolute terms when the basis functions are exact); products of basis functions likewise with n the number of variables; the coefficients do not change.", "quantifier": "every rounding with unit roundoff u, all basis sets and errors, coefficients, histories, points and directions", "why_tests_cant": "All doubles, coefficients and histories; the exact-arithmetic proof does not cover rounding.", "anchors": ["include/IntegrationTools/pfunction/PSeriesFunction.hh:calc_val", "include/IntegrationTools/pfunction/PSeriesFunction.hh:calc_grad_val", "include/IntegrationTools/pfunction/PSeriesFunction.hh:calc_hess_val", "include/IntegrationTools/pfunction/PSeriesFunction.hh:basis"]}
{"id": "C103", "title": "Element functions are functions of (r, n, h, s) and values", "statement": "Quad and Hexahedron objects, used through PFuncBase in any order of calls: operator()(var), grad(var,i), hess(var,i,j) give prod (1 - s_i (r_i - n_i)/h_i) and its partial derivatives in r; the getters give them where last evaluated, also by eval_grad and eval_hess; the simple functions are the components; name and variables are fixed; there is a derivative for each reported variable. Copies, clones and assigned objects are values of their own, without leak or double delete. (Violated: by Hexahedron for derivatives in direction 2 and mixed second derivatives; four variables are reported but there are d derivatives; copies are not evaluated; assignment shares components, which are deleted twice.)", "quantifier": "all arguments, all histories of calls, of any number of objects", "why_tests_cant": "All histories and arguments; generic code only sees the base class.", "anchors": ["include/IntegrationTools/pfield/interpolation/Quad.hh:Quad", "include/IntegrationTools/pfield/interpolation/Hexahedron.hh:Hexahedron"]}
{"id": "C104", "title": "A vtk file that ends early is not taken for a complete one", "statement": "A vtk file cut off before its end (a full disk, an interrupted copy) is not read as if it were complete: it is reported, or leaves no field to evaluate. (Violated: every file can be cut off after any number of values of its last field and is then read without any error, with zeros for the missing values. True when it is cut off before the first field: no field is made, and looking one up throws.)", "quantifier": "every vtk file, every dimension and mesh, every number of values left, every body it is read into", "why_tests_cant": "Every file and every place to cut it.", "anchors": ["include/IntegrationTools/pfield/Body.hh:read_vtk", "include/IntegrationTools/pfield/Mesh.hh:read_vtk"]}
{"id": "C105", "title": "A vtk file whose parts do not fit together is rejected", "statement": "A vtk file with an unsupported cell type, a cell that names a point the file does not have, a POINT_DATA section that is too short, or a cell that is not an axis-aligned rectangle listed from its lower left corner, is refused with an error. (True for cell types: exit status 1. Violated otherwise: a missing point is an access out of bounds; too few values are accepted and every evaluation in a cell with such a corner is an access out of bounds; a sheared cell is accepted and its nodal values are wrong; a square listed from another corner is an access out of bounds; a number of values that is not a number is taken for 0.)", "quantifier": "all vtk files with such a part, in 2D and 3D, every field, direction and point of such a cell", "why_tests_cant": "Every malformed file; a test has a few.", "anchors": ["include/IntegrationTools/pfield/Mesh.hh:read_vtk", "include/IntegrationTools/pfield/Body.hh:read_vtk", "include/IntegrationTools/pfield/PField.hh:operator()"]}
{"id": "C106", "title": "A Bin reports its limits, and a cleared Bin is an empty one", "statement": "min() and max() report the limits the Bin was made with (min and min + N*incr) in every history. After clear(), like a default-constructed Bin, it holds nothing: max_size() is 0 and no coordinate is in range, so that insertions and queries throw std::domain_error. (The last is violated: they are accesses out of bounds, at every coordinate.)", "quantifier": "every grid, history, item and coordinate", "why_tests_cant": "Every state and coordinate.", "anchors": ["include/IntegrationTools/datastruc/Bin.hh:clear", "include/IntegrationTools/datastruc/Bin.hh:min", "include/IntegrationTools/datastruc/Bin.hh:max", "include/IntegrationTools/datastruc/Bin.hh:max_size"]}
{"id": "C107", "title": "3D field values are right in floating-point arithmetic", "statement": "In IEEE arithmetic with unit roundoff u <= 1/64, a 3D vtk mesh of axis-aligned boxes with double coordinates (extents divided by the number of planes at least 16u times the largest coordinate) is read without error; at every double point of the body, after any history of evaluations, the value is within 256 u M of the trilinear interpolant of a cell containing the point (M the largest corner value); outside the bounding box by more than two bin sizes every evaluation throws std::domain_error. (The bound is violated for stacked cells: binary64 witness, 0 instead of 2/15. It holds where every cell over or under the point within two bin sizes contains it, in particular everywhere in a mesh of one layer.)", "quantifier": "every rounding with unit roundoff u, every resolved mesh, data, history and point", "why_tests_cant": "All doubles, meshes and histories; the exact-arithmetic proof does not cover rounding.", "anchors": ["include/IntegrationTools/pfield/interpolation/Hexahedron.hh:operator()", "include/IntegrationTools/pfield/Mesh.hh:basis_functions", "include/IntegrationTools/pfield/PField.hh:operator()", "include/IntegrationTools/datastruc/Bin.hh:_indices"]}
{"id": "C108", "title": "3D nodal values are exact in floating-point arithmetic", "statement": "In the setting of C107, on a conforming mesh, the value at the position of a node is exactly the node's data value, not merely close to it. (Violated for stacked thin cells: binary64 witness, 0 instead of 1. Holds at every node whose neighbours over and under it within two bin sizes contain it.)", "quantifier": "every rounding, every resolved conforming mesh, data, history and node", "why_tests_cant": "All doubles, meshes, nodes and histories.", "anchors": ["include/IntegrationTools/pfield/interpolation/Hexahedron.hh:operator()", "include/IntegrationTools/pfield/Mesh.hh:basis_functions", "include/IntegrationTools/pfield/PField.hh:operator()"]}
{"id": "C109", "title": "3D field derivatives are right in floating-point arithmetic", "statement": "In the setting of C107, grad(coord, di) is within 384 u M / h of the slope of the trilinear interpolant of a cell containing the point (h the cell's extent in direction di), and the pure second derivatives are exactly 0 at every double point of the body. (The first is violated for stacked cells and, as in 2D, on cell edges; it holds elsewhere.)", "quantifier": "every rounding with unit roundoff u, every resolved mesh, data, history, point and direction", "why_tests_cant": "All doubles, meshes and histories.", "anchors": ["include/IntegrationTools/pfield/interpolation/Hexahedron.hh:grad", "include/IntegrationTools/pfield/interpolation/Hexahedron.hh:hess", "include/IntegrationTools/pfield/PField.hh:grad", "include/IntegrationTools/pfield/PField.hh:hess"]}
{"id": "C110", "title": "Fields are linear in their data", "statement": "If the nodal data of one field of a body are p times those of a second plus q times those of a third, then at every point of the body, and whatever was evaluated on the body before each of the three evaluations, its value, its gradient and its second derivatives are the same combination of the values, gradients and second derivatives of the other two. In 2D and 3D.", "quantifier": "every mesh of rectangles or boxes, data, coefficients, point, direction and three histories", "why_tests_cant": "All meshes, data, points and histories.", "anchors": ["include/IntegrationTools/pfield/PField.hh:operator()", "include/IntegrationTools/pfield/PField.hh:grad", "include/IntegrationTools/pfield/PField.hh:hess", "include/IntegrationTools/pfield/Mesh.hh:basis_functions", "include/IntegrationTools/pfield/Body.hh:Body"]}
{"id": "C111", "title": "2D fields are continuous", "statement": "On a conforming 2D mesh of rectangles (no hanging nodes) a field, as a function of the position, is continuous on the whole body, across cell boundaries included.", "quantifier": "every conforming mesh, data and history, all real points", "why_tests_cant": "Continuity is a statement about all points and all tolerances.", "anchors": ["include/IntegrationTools/pfield/interpolation/Quad.hh:operator()", "include/IntegrationTools/pfield/Mesh.hh:basis_functions", "include/IntegrationTools/pfield/PField.hh:operator()"]}
{"id": "C112", "title": "3D fields interpolate the nodal data, stay within its range and are single-valued", "statement": "On a conforming 3D mesh of boxes, in exact arithmetic and after any history: the value at a point is the trilinear interpolant of every cell containing it; the value at a node is the node's data value; and all values lie between the smallest and the largest data value. (Violated for stacked cells: value 6 from data 0 and 1, nodal value 0 instead of 1, and the value depends on the order of the cells in the file. All three hold at points such that every cell over or under the point within one bin size contains it, in particular everywhere in a mesh of one layer.)", "quantifier": "every conforming mesh, data, history, point and node", "why_tests_cant": "All meshes, points and histories.", "anchors": ["include/IntegrationTools/pfield/interpolation/Hexahedron.hh:is_in_range", "include/IntegrationTools/pfield/interpolation/Hexahedron.hh:operator()", "include/IntegrationTools/pfield/Mesh.hh:basis_functions", "include/IntegrationTools/pfield/PField.hh:operator()"]}
{"id": "C113", "title": "A library writer that is killed harms nothing, and running it again repairs the library", "statement": "If a run of lw is killed at any moment before it compiles (while it scans, while it writes), no file but PLibrary.hh and PLibrary.cc in its location has changed; and after any number of runs killed at any moments, with any options, a run that is not killed ends with status 0 and leaves the complete library of the classes declared on the original disk, even when the location is one of the scanned directories and a torn PLibrary.hh lies in it.", "quantifier": "every disk, options, listing order, every moment of a run, every sequence of killed runs", "why_tests_cant": "Crash points: every moment of every run.", "anchors": ["src/lw/lw.cpp:main", "src/lw/lw.cpp:write_header", "src/lw/lw.cpp:write_source", "src/lw/lw.cpp:Collection::scandir"]}
{"id": "C114", "title": "A library is replaced as a whole", "statement": "At every moment of a run of lw the files PLibrary.hh and PLibrary.cc are a complete library: both the old ones, or both the new ones. (Violated by every run: there are moments when the header is empty, when the source is empty, and when the new header stands beside the old source. At every moment at most one of the two is incomplete.)", "quantifier": "every disk, valid options, every moment of a run", "why_tests_cant": "Crash points: every moment of every run.", "anchors": ["src/lw/lw.cpp:main"]}
{"id": "C115", "title": "Several threads can evaluate fields", "statement": "Threads evaluating fields at the same time get the results they would get alone, under every schedule. (True of threads using different bodies, for any number of threads and evaluations, and of threads using different fields of one body at points in the same bin. Violated for threads using different fields of one body at points in different bins: the search for the bin of a point goes through shared scratch memory of the mesh, and with an unfortunate schedule an evaluation returns a wrong value.)", "quantifier": "every number of threads, every sequence of evaluations, every schedule, bodies in every state", "why_tests_cant": "Schedules: every interleaving of the steps.", "anchors": ["include/IntegrationTools/datastruc/Bin.hh:contents", "include/IntegrationTools/datastruc/Bin.hh:indices", "include/IntegrationTools/datastruc/PNDArray.hh:linear_index", "include/IntegrationTools/pfield/PField.hh:operator()"]}
{"id": "C116", "title": "Monomials are accurate in floating-point arithmetic", "statement": "In arithmetic that rounds every operation with unit roundoff u, a shipped set of monomials, after any history of calls, computes x^k, its derivative and its second derivative with a relative error of at most (1+u)^k - 1. The function it computes for x^k is exactly even or odd, does not decrease for x >= 0, has the value 1 at 1 and maps [-1,1] to itself.", "quantifier": "every rounding, size, history, term and argument", "why_tests_cant": "All doubles and histories.", "anchors": ["tests/testlib/Monomial.hh:Monomial"]}
{"id": "C117", "title": "Chebyshev polynomials are accurate in floating-point arithmetic", "statement": "In floating-point arithmetic a shipped set of Chebyshev polynomials computes values of T_k in [-1,1] on [-1,1], with errors of the size of rounding errors. (Violated: T_29 at the double 1042434/1048576 is computed as more than 1 + 2^-17. What holds, after any history: the error is at most (1+u)^(2k) - 1 times the sum of the absolute values of the terms, on [-1,1] at most ((1+u)^(2k) - 1)(5/2)^k; the same for the derivatives; the function computed is exactly even or odd.)", "quantifier": "every rounding, size, history, term and argument", "why_tests_cant": "All doubles and histories.", "anchors": ["tests/testlib/Chebyshev.hh:Chebyshev"]}
{"id": "C118", "title": "The shipped functions are accurate in floating-point arithmetic", "statement": "In floating-point arithmetic Quadratic and MyFunc, after any history of calls, return their values, gradients and Hessians with errors of at most (1+u)^m - 1 times the sum of the absolute values of the terms, m at most 5; for arguments that are not negative this is a bound on the relative error.", "quantifier": "every rounding, history and argument", "why_tests_cant": "All doubles and histories.", "anchors": ["tests/testlib/Quadratic.hh:Quadratic", "tests/testlib/MyFunc.hh:MyFunc"]}
{"id": "C119", "title": "Polynomials as series over the shipped monomials are accurate in floating-point arithmetic", "statement": "A series over shipped sets of monomials, everything in floating-point arithmetic: after any history of calls the value, the gradient and the Hessian are those of the polynomial sum T_ij... x0^i x1^j ..., with an error of at most (1+u)^n - 1 times the sum of the absolute values of the terms, where n is the number of coefficients plus the number of variables plus the degree.", "quantifier": "every rounding, number of variables, sizes, coefficients, history and point", "why_tests_cant": "All doubles, coefficients and histories.", "anchors": ["tests/testlib/Monomial.hh:Monomial", "include/IntegrationTools/pfunction/PSeriesFunction.hh:calc_val", "include/IntegrationTools/pfunction/PSeriesFunction.hh:calc_grad_val", "include/IntegrationTools/pfunction/PSeriesFunction.hh:calc_hess_val"]}
{"id": "C120", "title": "Fields do not depend on the units and the origin of the coordinates", "statement": "Read a vtk file, and the same file with coordinate i multiplied by s_i > 0 and shifted by t_i. The second fails exactly when the first does, in the same way. When both are read, then after any evaluations of values the value (or the exception) at every position, in a cell, in a gap or outside, is that at the corresponding position of the original; the derivatives asked for first are those of the original divided by s_i (second derivatives: by s_i s_j); the limits of the body are those of the original in the new units. At points of a body of rectangles or boxes this holds after any evaluations whatever, also different ones on the two bodies. In 2D and 3D.", "quantifier": "every list of points, cells and fields (well-formed or not), every positive factors and offsets, history and position", "why_tests_cant": "All meshes, units, points and histories.", "anchors": ["include/IntegrationTools/pfield/Mesh.hh:read_vtk", "include/IntegrationTools/pfield/Mesh.hh:basis_functions", "include/IntegrationTools/datastruc/Bin.hh:indices", "include/IntegrationTools/pfield/PField.hh:operator()", "include/IntegrationTools/pfield/PField.hh:grad", "include/IntegrationTools/pfield/PField.hh:hess", "include/IntegrationTools/pfield/interpolation/Quad.hh:is_in_range", "include/IntegrationTools/pfield/interpolation/Hexahedron.hh:is_in_range"]}
{"id": "C121", "title": "Fields do not depend on the numbering of the nodes", "statement": "Two conforming 2D meshes whose cells are the same rectangles with the same values at the corners give the same value at every point of the body, whatever the numbering of the nodes, the order of the cells, repeated cells, nodes that belong to no cell, and whatever was evaluated before. In particular, renaming the nodes (coordinates, data and cells accordingly) changes no value.", "quantifier": "every conforming mesh, renumbering, data, history and point", "why_tests_cant": "All meshes, numberings, points and histories.", "anchors": ["include/IntegrationTools/pfield/Mesh.hh:read_vtk", "include/IntegrationTools/pfield/Mesh.hh:basis_functions", "include/IntegrationTools/pfield/PField.hh:operator()"]}
{"id": "C122", "title": "With a lock around each evaluation, threads can share a body", "statement": "Any number of threads evaluate values, gradients and second derivatives of fields of shared bodies at points of the bodies, with a lock around each evaluation. Under every schedule, whatever the order in which the threads get the lock, the results of each thread are those the evaluations give, each by itself, on the body as it was read.", "quantifier": "every number of threads and bodies, evaluations at points of the bodies, and every schedule that respects the locks", "why_tests_cant": "Schedules: every interleaving.", "anchors": ["include/IntegrationTools/datastruc/Bin.hh:contents", "include/IntegrationTools/datastruc/Bin.hh:indices", "include/IntegrationTools/pfield/PField.hh:operator()", "include/IntegrationTools/pfield/PField.hh:grad", "include/IntegrationTools/pfield/PField.hh:hess"]}
{"id": "C123", "title": "Every coordinate is answered or refused, infinities and NaN included", "statement": "An evaluation of a field at a coordinate that is infinite, or finite and beyond the limits of the body's bins, throws domain_error and changes no field, whatever the other coordinates are; at finite coordinates nothing depends on infinities and NaN existing; an evaluation with a NaN coordinate is refused as well. (The last part is violated by every body and every kind of evaluation: NaN passes the range check, and its conversion to int is undefined. It is refused only when an earlier coordinate is beyond the limits.) In 2D and 3D, after any history.", "quantifier": "every rectangular mesh, history, evaluation and coordinates, including infinities and NaN", "why_tests_cant": "All doubles and histories.", "anchors": ["include/IntegrationTools/datastruc/Bin.hh:indices", "include/IntegrationTools/datastruc/Bin.hh:contents", "include/IntegrationTools/pfield/Mesh.hh:basis_functions", "include/IntegrationTools/pfield/PField.hh:operator()", "include/IntegrationTools/pfield/PField.hh:grad", "include/IntegrationTools/pfield/PField.hh:hess"]}
{"id": "C124", "title": "The shipped piecewise function on all doubles", "statement": "In floating-point arithmetic with overflow, infinities and NaN, after any history of calls: at a point without NaN exactly one piece contains the point, it is found, and every component is computed; with x < 0 (also -infinity) and any y (also NaN) the value is x, the gradient (1,0), the Hessian 0, exactly; at any other point with a NaN no piece contains the point and every evaluation throws domain_error and changes nothing. For finite x >= 0 without overflow: the piece is the right one unless x^2+y^2 is within a factor (1+-u)^2 of 1/4; in the disc the value has relative error at most (1+u)^2 - 1, the gradient u, and the Hessian is exact; outside, the error of the value is bounded by that of pow and the roundings.", "quantifier": "every rounding, history and point, including infinities and NaN", "why_tests_cant": "All doubles and histories.", "anchors": ["tests/testlib/MyPieceWiseFunc.hh:MyPieceWiseFunc", "include/IntegrationTools/piecewise/PPieceWiseFuncBase.hh:piece", "include/IntegrationTools/piecewise/Piece.hh:in_piece"]}
{"id": "C125", "title": "Coefficients written as text are the coefficients read", "statement": "Coefficients (doubles) written with print_coeff to a text stream and read back with read_coeff into a series of the same shape are the same doubles. (Violated with a stream as it is: it prints 6 digits, and the double 1/3 comes back as 0.333333 in every series. Every coefficient comes back as the nearest number with as many decimal digits as the stream's precision, rounded; with a precision of 17 or more it comes back exactly, and so do the numbers of a vtk file.)", "quantifier": "every shape, every list of coefficients, every precision", "why_tests_cant": "All doubles and shapes.", "anchors": ["include/IntegrationTools/pfunction/PSeriesFunction.hh:print_coeff", "include/IntegrationTools/pfunction/PSeriesFunction.hh:read_coeff", "include/IntegrationTools/pfield/Mesh.hh:read_vtk", "include/IntegrationTools/pfield/Body.hh:read_vtk"]}
{"id": "C126", "title": "From the text of a vtk file to the values computed in doubles", "statement": "A vtk file of decimal numbers describing a conforming 2D mesh of rectangles, or a conforming one-layer mesh of boxes, in which different coordinates remain different as doubles and the body is resolved in doubles, is read without an error: the fields hold the decimals of the file rounded to doubles. After any history of evaluations, at every double point of a cell the value computed in floating-point arithmetic is within (66 + 8k)uM (3D: (258 + 12k)uM) of the bilinear (trilinear) interpolant of the decimal numbers written in the file, where M bounds the values of the field, u is the unit roundoff and k is the distance of the cell from the origin in units of the cell. Reading a well-formed file always does what building the body from its points, cells and fields does, in any arithmetic.", "quantifier": "every rounding, file, layout of the file, mesh, field, history and point", "why_tests_cant": "All files, doubles and histories.", "anchors": ["include/IntegrationTools/pfield/Body.hh:read_vtk", "include/IntegrationTools/pfield/Mesh.hh:read_vtk", "include/IntegrationTools/pfield/PField.hh:operator()", "include/IntegrationTools/datastruc/Bin.hh:indices", "include/IntegrationTools/pfield/interpolation/Quad.hh:is_in_range", "include/IntegrationTools/pfield/interpolation/Hexahedron.hh:is_in_range"]}
{"id": "C127", "title": "Fields on doubles with their exponent range", "statement": "On doubles with overflow and (gradual or abrupt) underflow, when coordinates of points and evaluations are 0 or between 2^-a and 2^m in magnitude and values of fields 0 or between 2^-V and 2^V, with 3(a+m) + V <= 806 (for instance 1e-30 to 1e30 and 1e-60 to 1e60), no operation of reading a body or evaluating a value, gradient or second derivative leaves the range of normal doubles: the body read and the outcome of every evaluation, after any history, are those of arithmetic with an unbounded exponent, whatever the cells are, in 2D and 3D. So legal meshes are read, values are within 64uM (3D, one layer: 256uM) of the interpolant, nodal values of a conforming 2D mesh are exact, and the values computed from the text of a file are within the bounds of C126.", "quantifier": "every arithmetic that rounds numbers in the normal range correctly, mesh, fields, history and evaluation of moderate size", "why_tests_cant": "All doubles and histories.", "anchors": ["include/IntegrationTools/pfield/Body.hh:read_vtk", "include/IntegrationTools/pfield/Mesh.hh:read_vtk", "include/IntegrationTools/pfield/Mesh.hh:basis_functions", "include/IntegrationTools/pfield/PField.hh:operator()", "include/IntegrationTools/pfield/PField.hh:grad", "include/IntegrationTools/pfield/PField.hh:hess", "include/IntegrationTools/datastruc/Bin.hh:indices", "include/IntegrationTools/pfield/interpolation/Quad.hh:is_in_range", "include/IntegrationTools/pfield/interpolation/Hexahedron.hh:is_in_range"]}
{"id": "C128", "title": "Numbers in files may be in any decimal notation", "statement": "A number in a vtk file or a file of coefficients may be written with or without a sign, a decimal point, leading or trailing zeros or an exponent: a text is read as a number exactly if it is such a numeral, and the number read is the value of the numeral, rounded to a double. Whatever a file contains, what is taken from it as a number is such a numeral; a numeral that lacks digits (in the mantissa or behind the e) is refused. What print_coeff writes for a number is such a numeral. So two vtk files with the same numbers in different notations and layouts give the same body.", "quantifier": "every text, numeral, file and rounding", "why_tests_cant": "All texts and notations.", "anchors": ["include/IntegrationTools/pfield/Body.hh:read_vtk", "include/IntegrationTools/pfield/Mesh.hh:read_vtk", "include/IntegrationTools/pfunction/PSeriesFunction.hh:read_coeff", "include/IntegrationTools/pfunction/PSeriesFunction.hh:print_coeff"]}
{"id": "C129", "title": "A field filled from a smooth function is close to it everywhere", "statement": "If the data of a body of rectangles are the values of a function at the nodes, then anywhere on the body the value of the field differs from the function by at most (M0*H0^2 + M1*H1^2)/8, where Mi bounds the magnitude of the second derivative in direction i and Hi the widths of the cells; a gradient component differs from the derivative of the function by at most what that derivative varies over a cell, and the value by at most what the function varies over a cell. In 3D the bound is (M0*H0^2 + M1*H1^2)/8 + M2*(H2^2/8 + m*(H2+m)/2) with m the height of the body divided by the number of its levels, also where the hexahedron of another layer is used; and at points no other layer is near (for instance on a body of one layer) (M0*H0^2 + M1*H1^2 + M2*H2^2)/8, with the same bounds for gradient and value as in 2D. With the nodal values rounded to doubles and every operation of the evaluation rounded, 66*u*B is added in 2D (261*u*B in 3D, at points two margins away from other layers), for data of magnitude at most B and a rounding error u.", "quantifier": "every mesh, function, point and call history", "why_tests_cant": "All functions and points: an error bound.", "anchors": ["include/IntegrationTools/pfield/Body.hh:read_vtk", "include/IntegrationTools/pfield/Mesh.hh:bin", "include/IntegrationTools/pfield/PField.hh:PField", "include/IntegrationTools/pfield/interpolation/Quad.hh:QuadValues", "include/IntegrationTools/pfield/interpolation/Hexahedron.hh:HexahedronValues"]}
{"id": "C130", "title": "The numbers of the nodes do not matter, in any arithmetic", "statement": "Read a vtk file, and the same file with its nodes renumbered (points and field data reordered, the node numbers of the cells changed accordingly). Reading fails for both, in the same way, or for neither. When both are read, the limits of the bodies are the same, and after the same evaluations every evaluation of every field - value, derivative or second derivative, at a point of a cell, in a gap, between layers or outside - has the same outcome, and the stored results are the same; in exact and in floating-point arithmetic, in 2D and 3D, whether the file makes sense or not. In 3D also the order of the cells, repeated cells and nodes of no cell do not matter at points to which no other layer is near.", "quantifier": "every list of points, cells and fields (well-formed or not), renumbering, rounding, history and evaluation", "why_tests_cant": "All meshes, numberings, points and histories.", "anchors": ["include/IntegrationTools/pfield/Body.hh:read_vtk", "include/IntegrationTools/pfield/Mesh.hh:read_vtk", "include/IntegrationTools/pfield/Mesh.hh:basis_functions", "include/IntegrationTools/datastruc/Bin.hh:indices", "include/IntegrationTools/pfield/PField.hh:operator()", "include/IntegrationTools/pfield/PField.hh:grad", "include/IntegrationTools/pfield/PField.hh:hess"]}
{"id": "C131", "title": "Factors, order and signs of the data survive rounding", "statement": "Multiply the data of the fields of a vtk file by powers of two or their negatives, a factor for each field: the file is read or refused as before, and after the same evaluations every value and derivative, computed in floating-point arithmetic at any position, is exactly the old one times the factor (without overflow and underflow); 2D and 3D, whether the file makes sense or not. If the data of one field are nowhere above those of another on the same mesh, then at every point of the body, whatever was evaluated before, the computed value of the first is not above that of the second; a field without negative data has no negative value, one without positive data no positive value; and with data between lo and hi the value is between lo and hi up to 64*u*max(|lo|,|hi|). (In 3D, order and signs hold at points to which no other layer is near. Elsewhere they are violated: the value of a field with data 0 and 1 can be -5.)", "quantifier": "every file, factors, history and position; every legal mesh, data, history and point", "why_tests_cant": "All files, data, histories and points in rounded arithmetic.", "anchors": ["include/IntegrationTools/pfield/Body.hh:read_vtk", "include/IntegrationTools/pfield/Mesh.hh:basis_functions", "include/IntegrationTools/pfield/PField.hh:operator()", "include/IntegrationTools/pfield/PField.hh:grad", "include/IntegrationTools/pfield/PField.hh:hess", "include/IntegrationTools/pfield/interpolation/Quad.hh:QuadValues", "include/IntegrationTools/pfield/interpolation/Hexahedron.hh:HexahedronValues"]}
{"id": "C132", "title": "Units of the coordinates that are powers of two survive rounding", "statement": "Multiply the coordinates of a vtk file by positive powers of two, one for each direction. In floating-point arithmetic (without overflow and underflow) the file is read or refused as before, its limits are exactly the old ones in the new units, and after evaluations of values anywhere every value, at every position (in a cell, in a gap, outside), is exactly the old one; a derivative or second derivative asked of the body as read, at any position, is exactly the old one divided by the factors. At points of legal bodies, and for any file at positions where the body as read gives an exception or a value other than 0, this holds for values and derivatives after any, also different, histories on the two bodies. 2D and 3D. (With other factors, such as metres to millimetres, values change in the last digits.)", "quantifier": "every file, factors, history and position", "why_tests_cant": "All files, histories and points in rounded arithmetic.", "anchors": ["include/IntegrationTools/pfield/Body.hh:read_vtk", "include/IntegrationTools/pfield/Mesh.hh:read_vtk", "include/IntegrationTools/pfield/Mesh.hh:basis_functions", "include/IntegrationTools/datastruc/Bin.hh:indices", "include/IntegrationTools/pfield/PField.hh:operator()", "include/IntegrationTools/pfield/PField.hh:grad", "include/IntegrationTools/pfield/PField.hh:hess"]}
{"id": "C133", "title": "What an evaluation remembers of earlier ones", "statement": "Read any vtk file (whatever its cells are) and compute in any arithmetic in which 0 is rounded to 0. For every position, either no evaluation there - a value, derivative or second derivative of any field - ever depends on what was evaluated before, in any history: it has the outcome it has on the body as read, number or exception; or the position is one where the body as read gives 0 for everything (or the evaluation is undefined behaviour as read, as for a field without data). So an exception, or a number other than 0, once is what there is always. No evaluation changes the limits of the body, the number of fields, their names or their data. 2D and 3D.", "quantifier": "every file, rounding, history and position", "why_tests_cant": "All files, histories and positions.", "anchors": ["include/IntegrationTools/datastruc/Bin.hh:indices", "include/IntegrationTools/datastruc/Bin.hh:contents", "include/IntegrationTools/pfield/Mesh.hh:basis_functions", "include/IntegrationTools/pfield/PField.hh:operator()", "include/IntegrationTools/pfield/PField.hh:grad", "include/IntegrationTools/pfield/PField.hh:hess"]}
{"id": "C134", "title": "Series and shipped functions on doubles with their exponent range", "statement": "On doubles with overflow and (gradual or abrupt) underflow: when the coefficients of a series are 0 or between 2^-V and 2^V in magnitude, and the values, derivatives and second derivatives of its basis functions at a point are 0 or between 2^-B and 2^B, with V + (number of variables)*B <= 970, then after any history of calls value, gradient and Hessian of the series are computed as with an unbounded exponent, so the error bounds of C102 hold with u = 2^-53. The shipped monomial x^k and its derivatives have a relative error of at most (1+u)^k - 1 at arguments that are 0 or between 2^-A and 2^A, for k*A + 10 <= 1022; a series over shipped monomials of degree at most N in each of d variables meets the bounds of C119 when V + d*(N*A + 10) <= 970. The shipped Quadratic meets the bounds of C118 at arguments that are 0 or between 2^-459 and 2^459, MyFunc between 2^-288 and 2^288.", "quantifier": "every arithmetic that rounds numbers in the normal range correctly, basis, coefficients, arguments of moderate size and history", "why_tests_cant": "All doubles and histories.", "anchors": ["include/IntegrationTools/pfunction/PSeriesFunction.hh:calc_val", "include/IntegrationTools/pfunction/PSeriesFunction.hh:calc_grad_val", "include/IntegrationTools/pfunction/PSeriesFunction.hh:calc_hess_val", "tests/testlib/Monomial.hh:Monomial", "tests/testlib/Quadratic.hh:Quadratic", "tests/testlib/MyFunc.hh:MyFunc"]}
{"id": "C135", "title": "Insertion and reading end in floating-point arithmetic", "statement": "In every arithmetic that keeps the order, 0 and numbers already rounded (in particular on doubles with gradual underflow and a biggest double): an insertion into a bin made with non-negative numbers of bins ends, whatever the widths, the history of insertions and the coordinates; and reading a vtk file of n characters ends after at most n + 2 passes of each loop, unless the stream has failed before the end of the file. (Violated: a file that cannot be opened is never done with, nor one with something else in place of a number.)", "quantifier": "every order-preserving rounding, bin, history and coordinates; every file and kind of element", "why_tests_cant": "Termination for all inputs; the arithmetic is not known exactly.", "anchors": ["include/IntegrationTools/datastruc/Bin.hh:add_range", "include/IntegrationTools/datastruc/Bin.hh:indices", "include/IntegrationTools/pfield/Body.hh:read_vtk", "include/IntegrationTools/pfield/Mesh.hh:read_vtk"]}
{"id": "C136", "title": "Several threads can evaluate series", "statement": "Several threads evaluate values, gradients and Hessians of series. Whatever the schedule, each thread finishes after a number of steps that depends only on its own evaluations, and has a result for each of them. A thread with a series of its own (series are copied by value) gets the values and derivatives of that series, whatever the other threads do with theirs; threads that share series and hold a lock during each evaluation all get the values and derivatives of the series. Threads that share a series without a lock get right results as well. (The last part is violated: two threads that evaluate one series at the same point can get 180 and 90 instead of 90 and 90, since sums are accumulated in the series.)", "quantifier": "every number of threads and series, basis, coefficients, evaluations, and every schedule", "why_tests_cant": "Schedules: every interleaving.", "anchors": ["include/IntegrationTools/pfunction/PSeriesFunction.hh:operator()", "include/IntegrationTools/pfunction/PSeriesFunction.hh:eval_grad", "include/IntegrationTools/pfunction/PSeriesFunction.hh:eval_hess", "include/IntegrationTools/pfunction/PSeriesFunction.hh:eval_basis", "include/IntegrationTools/pfunction/PSeriesFunction.hh:calc_val", "include/IntegrationTools/pfunction/PSeriesFunction.hh:calc_grad_val", "include/IntegrationTools/pfunction/PSeriesFunction.hh:calc_hess_val"]}
{"id": "C137", "title": "Basis functions that throw do no harm to a series", "statement": "A basis function written by a user may throw at some arguments. After any history of evaluations of a series, failed ones included: an evaluation (value, gradient, Hessian) none of whose basis functions throws at the point gives the value or derivative of the series; one with a basis function that throws passes an exception of one of them to the caller and gives no number, and the stored value, gradient, Hessian and coefficients are as they were before it.", "quantifier": "every basis, set of arguments at which functions throw, coefficients, history and point", "why_tests_cant": "Exceptions at every point of every history.", "anchors": ["include/IntegrationTools/pfunction/PSeriesFunction.hh:operator()", "include/IntegrationTools/pfunction/PSeriesFunction.hh:eval_grad", "include/IntegrationTools/pfunction/PSeriesFunction.hh:eval_hess", "include/IntegrationTools/pfunction/PSeriesFunction.hh:eval_basis", "include/IntegrationTools/pfunction/PBasisSet.hh:eval", "include/IntegrationTools/pfunction/PBasisSet.hh:eval_grad", "include/IntegrationTools/pfunction/PBasisSet.hh:eval_hess"]}
{"id": "C138", "title": "A mesh of rectangles of any size is read", "statement": "Every mesh of axis-aligned rectangular cells can be read, with any fields. (Violated: reading succeeds exactly when the product, over the directions, of the number of distinct coordinate values plus two is at most 2147483647; otherwise the number of bins overflows an int and the behaviour is undefined, whatever the cells are, for instance with 46340 unit squares corner to corner along a diagonal, 185360 points; in floating-point arithmetic the same, for meshes whose distinct coordinates are far enough apart for the arithmetic.)", "quantifier": "every list of points, cells and fields, 2D and 3D", "why_tests_cant": "Meshes of every size; the smallest bad ones are too big for tests.", "anchors": ["include/IntegrationTools/pfield/Mesh.hh:read_vtk", "include/IntegrationTools/pfield/Body.hh:read_vtk", "include/IntegrationTools/datastruc/Bin.hh:Bin", "include/IntegrationTools/datastruc/PNDArray.hh:calc_volume"]}
{"id": "C139", "title": "Where cells meet, the cell listed first in the file answers", "statement": "At a point that several cells contain (an edge, a corner, overlapping cells) every evaluation of every field, after any history, uses the first cell in the file that contains the point: in 2D the value is its bilinear interpolant there, the derivatives and second derivatives are the slopes of this interpolant. In 3D values and first derivatives are those of the trilinear interpolant of the first cell in the file that is over or under the point (or contains it) and reaches the layer of the point, where layers have the height of the mesh divided by its number of distinct heights; if every cell over or under the point whose vertical range comes near it contains it, this is the first cell that contains the point (otherwise it may be an extrapolation, C28).", "quantifier": "every legal mesh, data, history, field and point of the body", "why_tests_cant": "All meshes and histories; the choice depends on bins and loops.", "anchors": ["include/IntegrationTools/pfield/Mesh.hh:basis_functions", "include/IntegrationTools/pfield/Mesh.hh:read_vtk", "include/IntegrationTools/datastruc/Bin.hh:add_range", "include/IntegrationTools/pfield/PField.hh:operator()", "include/IntegrationTools/pfield/PField.hh:grad", "include/IntegrationTools/pfield/PField.hh:hess"]}
{"id": "C140", "title": "Turned, mirrored and stretched bodies", "statement": "Turn a body by right angles, mirror it, stretch and move it along the axes (a permutation of the axes, a factor not 0, possibly negative, and an offset for each direction; cell number k keeps its nodes, listed in the order the format asks for): in 2D, at every point of the body, also on edges, and after any, also different, histories on the two bodies, the value of every field is the one at the corresponding point of the original, and its first and second derivatives are those of the original in the corresponding directions divided by the factors. In 3D the same holds for values and first derivatives at points such that, in both bodies, every cell over or under the point whose vertical range comes near it contains it.", "quantifier": "every legal mesh, permutation of axes, factors, offsets, data, histories and point of the body", "why_tests_cant": "All meshes, symmetries and histories.", "anchors": ["include/IntegrationTools/pfield/Mesh.hh:basis_functions", "include/IntegrationTools/pfield/Mesh.hh:read_vtk", "include/IntegrationTools/pfield/interpolation/Quad.hh:is_in_range", "include/IntegrationTools/pfield/interpolation/Quad.hh:QuadValues", "include/IntegrationTools/pfield/interpolation/Hexahedron.hh:HexahedronValues", "include/IntegrationTools/pfield/PField.hh:operator()", "include/IntegrationTools/pfield/PField.hh:grad", "include/IntegrationTools/pfield/PField.hh:hess"]}
{"id": "C141", "title": "Sums of Chebyshev polynomials as series are accurate in floating-point arithmetic", "statement": "A series over shipped sets of Chebyshev polynomials, everything in floating-point arithmetic: after any history of calls the value, the gradient and the Hessian are those of sum C_ij... T_i(x0) T_j(x1) ..., with an error of at most (1+u)^n - 1 times the sum of the absolute values of all monomials of all terms, where n is the number of coefficients plus the number of variables plus twice the degree; on [-1,1] the error of the value is at most ((1+u)^n - 1) * sum |C_ij...| (5/2)^(i+j+...). On doubles with overflow and underflow this holds, with u = 2^-53, when the coefficients are 0 or between 2^-V and 2^V in magnitude, the coordinates 0 or between 2^-A and 2^A, and V + d*(N*A + 55) <= 970 for d variables and polynomials of degree at most N; for the polynomials themselves when k*A + 55 <= 1022.", "quantifier": "every rounding, number of variables, sizes, coefficients, history and point", "why_tests_cant": "All doubles, coefficients and histories.", "anchors": ["tests/testlib/Chebyshev.hh:Chebyshev", "include/IntegrationTools/pfunction/PSeriesFunction.hh:calc_val", "include/IntegrationTools/pfunction/PSeriesFunction.hh:calc_grad_val", "include/IntegrationTools/pfunction/PSeriesFunction.hh:calc_hess_val"]}
{"id": "C142", "title": "Several threads can evaluate functions", "statement": "Several threads evaluate values, gradients and Hessians of functions made of component functions, by a call that returns the number or by an evaluation and a getter after it. Whatever the schedule, each thread finishes after a number of steps that depends only on its own evaluations, and has a result for each of them. If the threads hold a lock during each evaluation (and the getter after it), each gets what the component functions give at its points, or the exception of the first that throws. Without locks a thread gets this as well if the other threads that evaluate the same function compute other components, or common components only where these have the same value; in particular if they evaluate other functions. It gets this without locks also when the threads compute the same component at different points. (The last part is violated: the number is stored in the function and read back from there, so the thread that asked for the square of 3 can get 25, which another thread asked for.)", "quantifier": "every number of threads and functions, component functions, evaluations, and every schedule", "why_tests_cant": "Schedules: every interleaving.", "anchors": ["include/IntegrationTools/pfunction/PSimpleBase.hh:operator()", "include/IntegrationTools/pfunction/PSimpleFunction.hh:operator()", "include/IntegrationTools/pfunction/PFlexFunction.hh:operator()", "include/IntegrationTools/pfunction/PFlexFunction.hh:grad", "include/IntegrationTools/pfunction/PFlexFunction.hh:hess", "include/IntegrationTools/pfunction/PFlexFunction.hh:eval_grad", "include/IntegrationTools/pfunction/PFlexFunction.hh:eval_hess"]}
{"id": "C143", "title": "Several threads can evaluate piecewise functions", "statement": "Several threads ask piecewise functions made of conditions and expressions for their value at a point, for whether a point is in a piece, or for the index of its piece. Whatever the schedule, each thread finishes after a number of steps that depends only on its function and the number of its queries. If the threads hold a lock during each call, each gets what the first piece whose conditions hold at its point gives (or std::domain_error where there is none, or the exception of the first condition or expression that throws), whatever was evaluated before. Without locks they get this as well if no condition is true for one thread and false for another and no two threads ask for different values; in particular if each thread has a function of its own. They get this without locks also otherwise. (The last part is violated: conditions store their outcome and read it back, so of two threads that evaluate a function that is -1 below 0 and 1 from there on, the one at 1 can get -1, and the one at -1 can get std::domain_error.)", "quantifier": "every number of threads and functions, pieces, conditions, expressions, points, and every schedule", "why_tests_cant": "Schedules: every interleaving.", "anchors": ["include/IntegrationTools/piecewise/PPieceWiseSimpleBase.hh:eval", "include/IntegrationTools/piecewise/PPieceWiseSimpleBase.hh:in_piece", "include/IntegrationTools/piecewise/PPieceWiseSimpleBase.hh:piece", "include/IntegrationTools/piecewise/SimplePiece.hh:in_piece", "include/IntegrationTools/piecewise/SimplePiece.hh:eval", "include/IntegrationTools/pfunction/PSimpleBase.hh:operator()"]}
{"id": "C144", "title": "Bodies can be copied and assigned", "statement": "A C++ program makes bodies, reads files into them, copies and assigns them, evaluates fields of originals and copies, with calls that return a number or keep it for getters, and destroys them, in any order: each body is a value of its own, equal to its source when copied, and no operation on one changes another. In every history in which, as long as there are copies of a body (or copies of its copies), nothing is read into it or assigned to it (except one of the copies) and it is not destroyed, nothing is read into a copy, and only bodies without cells are destroyed, every call has the outcome it would have if each copy were a body of its own, in any arithmetic. (Violated otherwise: the fields of a copy point to the mesh of the source. After a = b a copy made of a before is computed on the cells of b; after a second file is read into a, evaluating the copy writes out of bounds; destroying a body with cells is undefined.)", "quantifier": "every history of construction, reading, copying, assignment, evaluation and destruction, every mesh, field, point and rounding", "why_tests_cant": "All histories.", "anchors": ["include/IntegrationTools/pfield/Body.hh:Body", "include/IntegrationTools/pfield/Body.hh:read_vtk", "include/IntegrationTools/pfield/Mesh.hh:~Mesh", "include/IntegrationTools/pfield/Mesh.hh:Mesh", "include/IntegrationTools/pfield/PField.hh:PField", "include/IntegrationTools/pfield/PField.hh:operator()", "include/IntegrationTools/pfield/PField.hh:grad", "include/IntegrationTools/pfield/PField.hh:hess"]}
{"id": "C145", "title": "3D field Hessian is the second derivative of the interpolant", "statement": "At every point of the body hess(coord, di, dj) of a 3D field is the second derivative of the trilinear interpolant of the cell used, and is symmetric. (Violated: repeated directions give 0 as they should and the Hessian is symmetric, but a mixed component is the sum of the mixed slopes on the two opposite faces of the cell; for data sampled from x*y it is 2 instead of 1 at every point of every mesh.)", "quantifier": "every well-formed 3D mesh, every nodal data, every point of the body, every earlier history", "why_tests_cant": "Derivatives, and every mesh, point and history.", "anchors": ["include/IntegrationTools/pfield/PField.hh:hess", "include/IntegrationTools/pfield/interpolation/Hexahedron.hh:Hexahedron_hess_0_1"]}
{"id": "C146", "title": "3D fields are continuous", "statement": "On a 3D mesh whose cells meet in whole faces, the values of a field, after any history of calls, form a continuous function on the body. (Violated for cells on top of each other: two unit cubes, data 0 up to z = 1 and 1 at z = 2, jump from 0 to 1/3 at z = 4/3, where a layer of bins ends. Holds for the points at which every cell over or under the point whose vertical range comes near it contains it, and for meshes of one layer.)", "quantifier": "every well-formed 3D mesh of cells that meet in whole faces, nodal data, history and point", "why_tests_cant": "Continuity; every mesh, point and history.", "anchors": ["include/IntegrationTools/pfield/PField.hh:operator()", "include/IntegrationTools/pfield/Mesh.hh:basis_functions", "include/IntegrationTools/pfield/Mesh.hh:read_vtk"]}
{"id": "C147", "title": "lw --compile calls the compiler on the files it wrote and runs nothing else", "statement": "After writing its files lw --compile hands three command lines to the shell. The shell executes three commands, each a call of the compiler given: it compiles the PLibrary.cc written, with the flags and the directories as search paths, compiles PExtern.cc, and links the two; every path reaches the compiler as one argument, and nothing else is executed. (Holds for paths of letters, digits and / . _ - + , : @ % =. Violated otherwise: paths are not quoted; with a location 'my lib' the compiler gets 'my' and 'lib/PLibrary.cc', and a directory called 'a;touch b' makes the shell execute 'touch b'.)", "quantifier": "every compiler name, flags, location, list of directories, and files in them", "why_tests_cant": "All names a file system allows.", "anchors": ["src/lw/lw.cpp:main"]}
{"id": "C148", "title": "Data are felt only in the cells around their node", "statement": "Two fields on the same mesh, of one body or of two. At a point of the body where their data are the same at the nodes of all cells that contain the point, value, derivatives and second derivatives are the same, whatever was evaluated before on either; in floating-point arithmetic they are the same numbers. Where the data at these nodes differ by at most e, the values differ by at most e. So changing the value at one node changes a field only in the cells that have this node, and by no more than the change. (In 3D this holds at points such that every cell over or under the point whose vertical range comes near it contains it, and everywhere if the cells over or under the point that reach its layer of bins are counted as well; elsewhere it is violated: with two unit cubes on top of each other, adding 1 at a bottom corner of the lower one changes the value in the upper one, at height 5/4, by -1/16.)", "quantifier": "every legal mesh, data, history and point of the body, 2D and 3D", "why_tests_cant": "All meshes, data and histories.", "anchors": ["include/IntegrationTools/pfield/PField.hh:operator()", "include/IntegrationTools/pfield/PField.hh:grad", "include/IntegrationTools/pfield/PField.hh:hess", "include/IntegrationTools/pfield/Mesh.hh:basis_functions"]}
{"id": "C149", "title": "Refining a mesh does not change a field", "statement": "Cut cells of a body whose cells meet in whole faces into smaller ones (a second body each of whose cells is part of a cell of the first) and give the second body the values of a field of the first at its nodes as data. At every point of the second body the values of the two fields are then the same, whatever was evaluated before on either; in 2D first and second derivatives are the same as well at points that are in only one cell of the first body. (In 3D this holds for values and first derivatives where, in both bodies, every cell over or under the point whose vertical range comes near it contains it, and where the same is true, in the first body, of the nodes of the second. Violated otherwise: two unit cubes on top of each other, data 0 up to z = 1 and 1 at z = 2; cutting the upper one at z = 5/4 changes the value at z = 7/4 from 3/4 to 2/3.)", "quantifier": "every legal mesh, refinement, data, histories and point of the body, 2D and 3D", "why_tests_cant": "All meshes, refinements and histories.", "anchors": ["include/IntegrationTools/pfield/PField.hh:operator()", "include/IntegrationTools/pfield/PField.hh:grad", "include/IntegrationTools/pfield/PField.hh:hess", "include/IntegrationTools/pfield/Mesh.hh:basis_functions"]}
{"id": "C150", "title": "Lists of pieces that describe the same function give the same function", "statement": "Piecewise functions of pieces with conditions that do not throw. If pieces that apply at the same point have the same value (gradient, Hessian) there, the order in which they are listed does not matter: every evaluation has the same outcome, whatever was evaluated before on either, and so have the functions given by simplefunction, grad_simplefunction and hess_simplefunction; in_piece never depends on the order. If no two pieces overlap, the getters have the same outcome as well after the same calls. The order of the conditions of a piece does not matter, and a piece that applies only where one listed before applies can be left out.", "quantifier": "every list of pieces, order, point, component and history of calls", "why_tests_cant": "All functions, conditions, orders and histories.", "anchors": ["include/IntegrationTools/piecewise/PPieceWiseFuncBase.hh:operator()", "include/IntegrationTools/piecewise/PPieceWiseFuncBase.hh:in_piece", "include/IntegrationTools/piecewise/PPieceWiseFuncBase.hh:piece", "include/IntegrationTools/piecewise/Piece.hh:in_piece", "include/IntegrationTools/piecewise/PPieceWiseSimpleBase.hh:eval"]}
{"id": "C151", "title": "Series with their variables in another order, and over longer basis sets", "statement": "Two series over the same basis sets in different orders (variable i of the second is variable p(i) of the first) whose coefficients correspond: values, gradients and Hessians, after eval_grad and eval_hess, of the second are those of the first at the corresponding point, in the corresponding directions. Two series over basis sets of which those of the second begin with the functions of those of the first, with the same coefficients and 0 for the functions added: values, gradients and Hessians are the same at every point. Both hold whatever was evaluated before with either.", "quantifier": "every number of variables, basis sets, permutation, coefficients, history and point", "why_tests_cant": "All sizes, numbers of variables, coefficients and histories.", "anchors": ["include/IntegrationTools/pfunction/PSeriesFunction.hh:operator()", "include/IntegrationTools/pfunction/PSeriesFunction.hh:eval_grad", "include/IntegrationTools/pfunction/PSeriesFunction.hh:eval_hess", "include/IntegrationTools/pfunction/PSeriesFunction.hh:calc_val", "include/IntegrationTools/pfunction/PSeriesFunction.hh:calc_grad_val", "include/IntegrationTools/pfunction/PSeriesFunction.hh:calc_hess_val"]}
{"id": "C152", "title": "The order of the cells does not matter", "statement": "Two bodies are made of the same nodes and the same cells, listed in different orders (or some of them more than once), and have fields with the same data. If the cells meet in whole faces, the values of the fields are the same at every point of the body, whatever was evaluated before on either. At points that are in only one cell values, first and second derivatives are the same for any cells, and the same numbers in floating-point arithmetic. Where one throws because the point is too far outside, so does the other. (In 3D this holds where every cell over or under the point whose vertical range comes near it contains it. Violated otherwise: with two unit cubes on top of each other, data 0 up to z = 1 and 1 at z = 2, the value at height 5/4 is 0 if the lower one is listed first and 1/4 if the upper one is.)", "quantifier": "every legal mesh, list of its cells, data, histories and point, 2D and 3D", "why_tests_cant": "All meshes, orders, data and histories.", "anchors": ["include/IntegrationTools/pfield/PField.hh:operator()", "include/IntegrationTools/pfield/PField.hh:grad", "include/IntegrationTools/pfield/PField.hh:hess", "include/IntegrationTools/pfield/Mesh.hh:basis_functions", "include/IntegrationTools/pfield/Mesh.hh:read_vtk"]}
{"id": "C153", "title": "A library depends only on the classes declared", "statement": "lw writes a library for directories of headers. The order of the directories, of the files in them, of the lines in these and of the types given for VarContainer does not matter: both runs are accepted or both end with status 1, and the two libraries have the same functions, one for one, with the same signatures and the same behaviour for every name, and include the same headers. Files that are not headers of a library, and lines that declare no class, can be added or left out: the files written at the same time are the same.", "quantifier": "all directories, files, lines, orders and lists of types for VarContainer (names and types free of quotes, backslashes and newlines)", "why_tests_cant": "All directories and orders.", "anchors": ["src/lw/lw.cpp:Collection", "src/lw/lw.cpp:scanline_for_class", "src/lw/lw.cpp:write_header", "src/lw/lw.cpp:write_source"]}
{"id": "C154", "title": "Piecewise functions can be nested", "statement": "The expression of a piece may be a piecewise function, its expressions again, and so on. At every point at which no condition throws, evaluation follows the first piece whose conditions hold at every level: it gives what the expression reached gives, and throws std::domain_error if it comes to a piecewise function with no piece for the point, even if later pieces of the outer ones have it (in_piece is true there). Wherever an expression is reached, the function made of these expressions alone, each with all conditions on the way to it, in the same order, gives the same.", "quantifier": "every nesting, of any depth and width, conditions, expressions and point", "why_tests_cant": "Nestings of every depth.", "anchors": ["include/IntegrationTools/piecewise/PPieceWiseSimpleBase.hh:eval", "include/IntegrationTools/piecewise/PPieceWiseSimpleBase.hh:in_piece", "include/IntegrationTools/piecewise/SimplePiece.hh:in_piece", "include/IntegrationTools/piecewise/SimplePiece.hh:eval"]}
