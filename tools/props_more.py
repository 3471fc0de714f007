P("C68", "resize keeps the common prefix of the values",
  "resize(dim) to a usable shape keeps the value at every linear position below both the old and the new volume, and value-initialises every other position.",
  "every old array, every usable new shape, every linear position", "Unbounded shapes and contents.", [ND+":resize"])
P("C69", "A failed resize leaves a consistent array",
  "If resize throws, the array's shape and storage still agree. (Violated: a negative volume throws length_error after the extents, order and volume were already replaced; only the stored values are unchanged.)",
  "every array and every extents list for which resize throws", "Needs every state in which the exception can be thrown.", [ND+":resize"])
P("C70", "3D field reproduces trilinear data",
  "If the nodal data are samples of a polynomial that is affine in each of x, y and z, the 3D field equals it at every point of the body and its gradient is the polynomial's gradient.",
  "every well-formed 3D mesh, every trilinear polynomial, every point of the body, every earlier history", "Every mesh, polynomial and point.", [FIELD+":operator()", FIELD+":grad"])
P("C71", "Inserting into a bin always ends",
  "add_once and add_range return, throw, or are stopped by undefined behaviour for every coordinates, but never loop for ever, even for a lower corner above the upper corner or coordinates outside the bins.",
  "every bin made with non-negative numbers of bins, every history of insertions, every further insertion", "Non-termination cannot be observed by a test, and every coordinate pair counts.", [BIN+":add_range", BIN+":add_once"])
P("C72", "Managing a PFlexFunction works",
  "clear() gives the state of a default-constructed function, p = q makes p equal to q, and copying gives an equal function. (Violated: clear() dereferences NULL for every function, operator= never returns a value, a default-constructed function cannot be copied; copying a function with a value part works.)",
  "every pair of PFlexFunctions", "Undefined behaviour may look harmless in a test run; the claim is about every state.", [PF+"PFlexFunction.hh:clear", PF+"PFlexFunction.hh:operator="])
P("C73", "A series used as a function reports its variables",
  "size(), name() and var_name(i) of a series used through PFuncBase/PFunction describe its variables. (Violated: they are never set; size() is 0 for every series and var_name(i) reads out of bounds.)",
  "every series in every state", "Holds for every state, not for a sampled one.", [SER+":PSeriesFunction", PF+"PFuncBase.hh:size"])
P("C74", "A piecewise function reports the variables of its pieces",
  "size(), name() and var_name(i) of a piecewise function built from pieces describe the variables of the pieces. (Violated: the constructor never sets them; size() is 0 whatever the pieces. A single Piece reports what its expression reports.)",
  "every list of pieces, every history of calls on a piece", "Holds for every list of pieces and history, not for a sampled one.", [PW+"PPieceWiseFuncBase.hh:PPieceWiseFuncBase", PW+"Piece.hh:Piece"])
P("C75", "Every checkout function is written once",
  "No checkout signature is declared or defined twice, so the generated library compiles. (Violated: with a type given for VarContainer that is also the input type of a scanned class, or given twice, a function is written twice.)",
  "every set of headers, every list of variable container types", "Every library and type list; a test compiles one.", [LW+":write_header", LW+":write_source"])
P("C76", "A class declaration is recognised, with its name and types",
  "A header line declaring class NAME : public BASE< IN, OUT > is recognised whatever the blanks, with exactly that base class, name, input and output type; and what is recognised is there. (Violated: blanks before ',' and '>' become part of the types.)",
  "every line of the form, every placement of blanks", "All lines.", [LW+":scanline_for_class"])
P("C77", "What the shipped functions print is what they compute",
  "The strings csrc(), sym() and latex() of every monomial, Chebyshev polynomial, Quadratic, MyFunc and MyPieceWiseFunc component (and condition), read as C++, symbolic and LaTeX expressions, denote the function that the object evaluates, at every point.",
  "every term, component, string and point", "Equality of two functions at every point; a test compares a few.", ["tests/testlib/Monomial.hh", "tests/testlib/Chebyshev.hh", "tests/testlib/Quadratic.hh", "tests/testlib/MyFunc.hh", "tests/testlib/MyPieceWiseFunc.hh"])
P("C78", "The shipped piecewise function is the function it describes",
  "MyPieceWiseFunc(x, y) is defined everywhere; each point lies in exactly one of its three pieces and piece() says which; its value there is x (left half plane), x^2+y^2 (half disc of radius 1/2) or r-1/4 (the rest, r the distance from the origin), its gradient is the derivative of the value (also across the circle, where the disc and the outer piece meet) and its Hessian the derivative of the gradient inside the pieces; it reports its name and its two variables, and so do the classes of its pieces; whatever was called before.",
  "every point of the plane, every history of earlier calls", "A statement about derivatives at every point and every history; a test compares a few points.", ["tests/testlib/MyPieceWiseFunc.hh"])
P("C79", "Generated functions copy and assign as values",
  "Objects of a generated function class can be constructed, copied, assigned, evaluated and destroyed in any order, each behaving as a value of its own, a copy or assigned object being equal to its source. (Violated: the copy constructor makes a fresh object, losing the stored value; operator= returns nothing, leaks the old object and shares the new one, so both destructors free it.)",
  "every history of construct, copy, assign, call and destroy over any number of objects", "Ownership errors depend on the history; a test runs one.", ["tests/testlib/MyPieceWiseFunc.hh:MyPieceWiseFunc_piece0_f", "src/lw/lw.cpp"])
XC = "src/c/PExtern.cc"
P("C80", "Objects behind C pointer variables behave as values",
  "Through the C interface, with new into empty variables, calls on objects and delete of anything (also twice), each pointer variable behaves as if it were its object: calls on one do not affect another, a new that throws leaves the variable empty, nothing is deleted twice and when every variable is deleted nothing is left. Once an object has two variables and was deleted through one, everything through the other is undefined.",
  "every history of declarations, new, delete and calls over any number of variables, every class of objects", "Ownership depends on the history; a test runs one.", [XC+":PFunction_dsd_new", XC+":PFunction_dsd_delete", XC+":PSeriesFunction_dsis_delete"])
P("C81", "The C interface to functions computes what C++ computes",
  "PFunction_dsd_calc, _calc_grad, _calc_hess store the component's value at the given point or pass on its exception, after any history of calls; _eval... succeed exactly when it has one; _get... return the component's value where it was last evaluated; _size is the number of variables.",
  "every function, every history of calls, every point and component", "Every history and point.", [XC+":PFunction_dsd_calc", XC+":PFunction_dsd_get", XC+":PFunction_dsd_eval_grad"])
P("C82", "Names pass through the C interface intact",
  "name, var_name, var_description and description store the whole text in the client's buffer and write nowhere else. (Violated: the client cannot give the size of the buffer; the text is stored exactly when the buffer has more characters than the text, and otherwise the call writes behind it.)",
  "every text, every buffer size, every history of calls", "Every text and buffer size; a short name in a large buffer passes.", [XC+":PFunction_dsd_name", XC+":PFunction_dsd_var_description", XC+":PBasisSet_dd_name"])
P("C83", "The C interface to series computes the series",
  "PSeriesFunction_dsis_setnew and _set (on a series in any state), given basis sets checked out of the library by name and used in any way, give a series over their functions with zero coefficients; after any calls other than clear, order, dim, volume, linear_index and tensor_indices describe its shape, a coefficient set by tensor or linear index is the one read and no other changes, calc/eval+get store the sum of the series, eval_grad+get_grad and eval_hess+get_hess the sums of its first and second derivatives; calc_basis and eval_basis+get_basis (and for derivatives) give the single basis functions and change nothing else that can be got; calc_tensor_basis and get_tensor_basis (and for derivatives) give their products.",
  "every library whose classes have the names they are registered under, all lists of basis sets, every history of calls, every point", "All shapes, histories and points.", [XC+":PSeriesFunction_dsis_setnew", XC+":PSeriesFunction_dsis_set", XC+":PSeriesFunction_dsis_calc", XC+":PSeriesFunction_dsis_eval_hess"])
PY = "src/python/pfunction/"
P("C84", "The Python classes compute what C++ computes",
  "Every method of PFunc_dsd, PSimple_dsd, PSimple_dd, PBasisSet_dd and PSeries_dsis returns what the C++ member returns, after any history of method calls. (Violated: get_grad and get_hess of PFunc_dsd call the wrong C function; name, var_name, var_description and description read an address made of the characters of the name; linear_index of a series always raises AttributeError; calc_basis_grad and calc_basis_hess pass too many arguments; a series without basis sets cannot be made.)",
  "every function, series, history of method calls, point and component", "Every history and point; most methods work in a short test.", [PY+"pfunc_dsd.py", PY+"psimple_dsd.py", PY+"pbasisset_dd.py", PY+"pseries_dsis.py"])
P("C85", "Coefficients pass between C++ and Python through text files",
  "print_coeff writes the same text from Python and C++; read_coeff of either restores every coefficient of a series of the same shape and leaves the rest of the file; in Python a file with too few lines raises IndexError.",
  "every shape and coefficients, every number and string format that reads back", "Unbounded shapes; all coefficient values.", [PY+"pseries_dsis.py:print_coeff", PY+"pseries_dsis.py:read_coeff", "include/IntegrationTools/pfunction/PSeriesFunction.hh:print_coeff"])
P("C86", "The C interface to basis sets and simple functions computes what C++ computes",
  "A basis set checked out by name and size has the functions of its class; an unknown name throws std::runtime_error, a size above the class's limit ends the program; after any calls size, calc, calc_grad, calc_hess, eval+get, eval_grad+get_grad, eval_hess+get_hess give the number of functions, their values and derivatives; resize to an allowed size gives that many functions; max_size is the limit, never less than the size. For simple functions calc gives the value and get the value at the point of the last calc that gave one. (Violated: for a class without a limit max_size gives -1.)",
  "every library, class, size, history of calls, point and term", "Every history and point.", [XC+":PBasisSet_dd_calc", XC+":PBasisSet_dd_max_size", XC+":PBasisSet_dd_resize", XC+":PSimpleFunction_dsd_calc"])
P("C87", "Basis sets and series behind C pointers are independent values",
  "A client of the C interface that keeps variables for basis sets and for series, and makes series from the basis sets in its variables, observes that each variable is its object and a series has copies of its basis sets: evaluating, resizing or deleting the basis sets afterwards does not change the series, and nothing is leaked or deleted twice.",
  "every legal history over any number of variables of both kinds, every library", "Ownership depends on the history; a test runs one.", [XC+":PSeriesFunction_dsis_setnew", XC+":PSeriesFunction_dsis_set", XC+":PBasisSet_dd_new", XC+":PBasisSet_dd_delete"])
P("C88", "Bodies and fields behind C pointers are independent values",
  "A client of the C interface that keeps variables for bodies and for fields (views obtained by name, or clones) observes that each body variable is a body of its own, a view is the field of its body and a clone a field of its own over the same mesh, and that bodies and clones can be deleted without leak or double delete. (Violated: deleting a body that has cells is undefined, as is deleting a view.)",
  "every legal history over any number of body and field variables, every kind of file and call", "Ownership depends on the history; a test runs one.", [XC+":Body2D_new", XC+":Body2D_delete", XC+":ScalarField2D", "include/IntegrationTools/pfield/Mesh.hh:~Mesh", "include/IntegrationTools/pfield/PField.hh:clone"])
P("C89", "The C interface to fields computes the fields of the files",
  "However a client reads vtk files into bodies, obtains fields by name, clones and evaluates them through PFunction_dsd_*, a variable denoting the field NAME of a file reports NAME, its number of variables and their names, gives at every point of the body the value, gradient and Hessian of the interpolant (bilinear in 2D) of the file's data, throws std::domain_error outside the binned region, and the getters return what was computed last.",
  "all vtk files of rectangular meshes, all legal histories, every point of the body, every component", "All files, histories and points; a test reads one file.", [XC+":Body2D_new", XC+":ScalarField2D", XC+":Body3D_new", XC+":ScalarField3D", XC+":PFunction_dsd_calc", "include/IntegrationTools/pfield/Body.hh:find_scalar_field", "include/IntegrationTools/pfield/PField.hh"])
BODY = "include/IntegrationTools/pfield/Body.hh"
P("C90", "A body can read more than one file",
  "After reading a further vtk file into a body, its fields and the earlier ones evaluate to the interpolants of their own files. (Violated: points and fields are appended, but cells are numbered and placed as if the file were the first: reading the same file twice doubles every field at every point, cells of another file are placed at the points of the first, and views of earlier fields access memory outside their buffers.)",
  "every body, every file, every field and point", "All meshes, fields and points; a test reads each body once.", [BODY+":read_vtk", "include/IntegrationTools/pfield/Mesh.hh:read_vtk"])
CO = "include/IntegrationTools/pfield/Coordinate.hh"
P("C91", "A coordinate stores and prints its components",
  "A coordinate of dimension d has size d; component i is the value assigned to it last; operator<< writes the components in order, separated by single blanks, and reading as many numbers from that text gives the components again. Components out of the dimension, or never assigned, are undefined to read.",
  "every dimension, every sequence of assignments, every number format that reads back", "All dimensions, assignments and values.", [CO+":operator[]", CO+":operator<<", CO+":size"])
P("C92", "Python bodies and fields compute the fields of the files",
  "A Python program may make Body2D/Body3D objects from vtk files and PFunc_dsd(name, body2d=...) objects for their fields, and call methods in any order: size is the dimension, calc, calc_grad, calc_hess return the value and derivatives of the interpolant of the file's data at every point of the body, get returns what calc or eval computed last, a point outside the bins ends the interpreter; name, get_grad, get_hess and delete work. (Violated: the last four are undefined for every field and body.)",
  "all vtk files of rectangular meshes, all programs, every field, point and component", "All files, programs and points.", [PY+"body.py", PY+"pfunc_dsd.py"])
P("C93", "Bins work in floating-point arithmetic",
  "In IEEE arithmetic (every result rounded) a Bin still keeps items: contents(c) returns the items put in c's computed bin in call order, a coordinate outside the computed limits is refused with std::domain_error and changes nothing, and an item added over a box is found at every coordinate of the box. Every coordinate within the limits has a bin. (Violated: with 17 bins of width 0.1 from 0 in binary64, 1.7 is below the computed limit but its bin number is 17: out of bounds. True up to a few roundoffs below the limit.)",
  "every rounding, every grid, every history of insertions, every coordinate", "All doubles, all grids and histories; the exact-arithmetic proof does not cover rounding.", [BIN+":indices", BIN+":add_range", BIN+":contents"])
P("C94", "Field values are right in floating-point arithmetic",
  "In IEEE arithmetic (every result rounded, unit roundoff u) every mesh of rectangular cells whose extents are resolved by the arithmetic is read without an error; at every floating-point coordinate of the body, after any history of calls, the value of a field is within 64 u max|corner values| of the bilinear interpolant of a cell containing the point (of every such cell, when neighbours share corners); well outside the body every call throws std::domain_error.",
  "every rounding with u <= 1/64 (binary32, binary64), all meshes, fields, histories and floating-point coordinates", "All doubles, meshes and histories; the exact-arithmetic proof does not cover rounding.", [FIELD+":operator()", "include/IntegrationTools/pfield/Mesh.hh:basis_functions", "include/IntegrationTools/pfield/interpolation/Quad.hh", BIN+":add_range"])
P("C95", "Nodal values are exact in floating-point arithmetic",
  "On a mesh whose cells share corners, the value of a field at a node of a cell is exactly the node's data value, in every IEEE arithmetic and after any history: no rounding error at nodes.",
  "every rounding, mesh, field, history and node", "All doubles and meshes.", [FIELD+":operator()", "include/IntegrationTools/pfield/interpolation/Quad.hh"])
P("C96", "Field derivatives are right in floating-point arithmetic",
  "At every floating-point coordinate of the body grad(c, di) is within 96 u max|corner values|/h_di of the slope of the bilinear interpolant of a cell containing the point, hess(c, di, dj) within 96 u max|corner values|/(h_0 h_1) of its mixed derivative, and the pure second derivatives are exactly 0. (Violated on cell edges: with one cell from -3 to 2.6 in binary64, the gradient of a constant field at the edge is about 0.18, because the rounded cell extent excludes the edge from the cell's bins. True at every coordinate within the rounded extents, in particular at every coordinate of the cell's interior one relative roundoff away from its sides.)",
  "every rounding, mesh, field, history and coordinate", "All doubles and meshes; whether an edge is affected depends on the last bit of the coordinates.", [FIELD+":grad", FIELD+":hess", "include/IntegrationTools/pfield/interpolation/Quad.hh"])
P("C97", "A field is a PFunction",
  "Fields of a body used as PFuncBase objects, with double* points, in any order: a field always reports its name and its variables x, y (and z); operator()(var), grad(var, di), hess(var, di, dj) give what a body read afresh with that single field gives; eval, eval_grad, eval_hess at a point of the binned region return normally and the getters then return those values, in every direction; outside the bins they throw std::domain_error; the simple functions a field does not have throw std::runtime_error.",
  "every legal mesh and fields, every history of calls on them, every point and direction", "Every history and point; generic code only sees the base class.", [FIELD+":eval_grad", FIELD+":eval_hess", "include/IntegrationTools/pfunction/PFuncBase.hh"])
P("C98", "A Python object is one C++ object, under all its names, until it is deleted",
  "A Python program that makes PSimple_dd, PSimple_dsd, PFunc_dsd, PBasisSet_dd and PSeries_dsis objects, gives them any number of names, deletes them (even twice) and calls methods observes values: names of the same object share it, other objects are independent, a series has copies of the basis sets in its list; there is exactly one C++ object for every object not deleted. A name that is not in the library ends the program with a message; an object no variable names any more is freed. (The last two are violated: an unknown name is a C++ exception that ends the interpreter before the message, and without delete() the C++ object stays for ever.)",
  "every program over any number of objects and names, every library, class, argument and method", "Ownership depends on the program; a test runs one.", [PY+"psimple_dd.py:__init__", PY+"psimple_dsd.py:delete", PY+"pfunc_dsd.py:__init__", PY+"pbasisset_dd.py:delete", PY+"pseries_dsis.py:__init__", PY+"pseries_dsis.py:set"])
P("C99", "The generated library is C++ text that declares what it defines and constructs what was asked for",
  "For every set of scanned directories and types, PLibrary.hh and PLibrary.cc can be read as C++: include guards, the includes, balanced namespaces, and nothing but checkout functions in PRISMS::PLibrary; the header declares exactly the functions the source defines; calling a function with a name assigns to its parameter the wrapped or newly allocated object of the class declared under that name (for basis sets of the requested size), with the right template argument, or throws std::runtime_error saying what was not found; every declared class can be had this way, and there is no function without a class.",
  "every set of headers, types and names (free of quotes, backslashes and newlines)", "All sets of headers; a test compiles the library of one.", [LW+":write_header", LW+":write_source"])
P("C100", "A run of lw writes the library and nothing else",
  "A run with valid options writes PLibrary.hh and PLibrary.cc for the classes declared in the given directories, changes no other file, and ends with status 0, whatever order directories are listed in at each reading, also when the location is itself scanned or holds an earlier library; --help, --version and bad options change nothing. A run that does not write the library ends with a status other than 0 and leaves an earlier library as it was. (The last is violated: a class declared twice or a missing directory leaves an empty PLibrary.hh, a missing location is not noticed, and a compiler that fails with --compile is not either.)",
  "every state of the directories, every listing order, all options", "All directories, orders and options; a test runs on one.", [LW+":main", LW+":write_header", LW+":Collection"])
P("C101", "The generated source includes the headers of the classes it constructs",
  "After a run of lw, an include of PLibrary.cc finds (in the location or the scanned directories, in order) the very file that declares the class. (Violated for two headers with the same name in different directories: included once, only the first is found.)",
  "every set of directories and headers", "All sets of directories.", [LW+":scanfile", LW+":write_source", LW+":main"])
P("C102", "Series are right in floating-point arithmetic",
  "In IEEE arithmetic (every product and sum rounded, unit roundoff u), with basis functions that are themselves computed with errors: after any history of calls f(x), and after eval_grad(x), eval_hess(x) every grad(di) and hess(di,dj), differs from the series over the exact basis functions by at most sum |T_ij..| ((1+u)^n prod(|phi|+e) - prod|phi|), n the number of coefficients plus variables (about n u times the sum of the absolute terms when the basis functions are exact); products of basis functions likewise with n the number of variables; the coefficients do not change.",
  "every rounding with unit roundoff u, all basis sets and errors, coefficients, histories, points and directions", "All doubles, coefficients and histories; the exact-arithmetic proof does not cover rounding.", [SER+":calc_val", SER+":calc_grad_val", SER+":calc_hess_val", SER+":basis"])
P("C103", "Element functions are functions of (r, n, h, s) and values",
  "Quad and Hexahedron objects, used through PFuncBase in any order of calls: operator()(var), grad(var,i), hess(var,i,j) give prod (1 - s_i (r_i - n_i)/h_i) and its partial derivatives in r; the getters give them where last evaluated, also by eval_grad and eval_hess; the simple functions are the components; name and variables are fixed; there is a derivative for each reported variable. Copies, clones and assigned objects are values of their own, without leak or double delete. (Violated: by Hexahedron for derivatives in direction 2 and mixed second derivatives; four variables are reported but there are d derivatives; copies are not evaluated; assignment shares components, which are deleted twice.)",
  "all arguments, all histories of calls, of any number of objects", "All histories and arguments; generic code only sees the base class.", ["include/IntegrationTools/pfield/interpolation/Quad.hh:Quad", "include/IntegrationTools/pfield/interpolation/Hexahedron.hh:Hexahedron"])
P("C104", "A vtk file that ends early is not taken for a complete one",
  "A vtk file cut off before its end (a full disk, an interrupted copy) is not read as if it were complete: it is reported, or leaves no field to evaluate. (Violated: every file can be cut off after any number of values of its last field and is then read without any error, with zeros for the missing values. True when it is cut off before the first field: no field is made, and looking one up throws.)",
  "every vtk file, every dimension and mesh, every number of values left, every body it is read into", "Every file and every place to cut it.", [BODY+":read_vtk", MESH+":read_vtk"])
P("C105", "A vtk file whose parts do not fit together is rejected",
  "A vtk file with an unsupported cell type, a cell that names a point the file does not have, a POINT_DATA section that is too short, or a cell that is not an axis-aligned rectangle listed from its lower left corner, is refused with an error. (True for cell types: exit status 1. Violated otherwise: a missing point is an access out of bounds; too few values are accepted and every evaluation in a cell with such a corner is an access out of bounds; a sheared cell is accepted and its nodal values are wrong; a square listed from another corner is an access out of bounds; a number of values that is not a number is taken for 0.)",
  "all vtk files with such a part, in 2D and 3D, every field, direction and point of such a cell", "Every malformed file; a test has a few.", [MESH+":read_vtk", BODY+":read_vtk", FIELD+":operator()"])
P("C106", "A Bin reports its limits, and a cleared Bin is an empty one",
  "min() and max() report the limits the Bin was made with (min and min + N*incr) in every history. After clear(), like a default-constructed Bin, it holds nothing: max_size() is 0 and no coordinate is in range, so that insertions and queries throw std::domain_error. (The last is violated: they are accesses out of bounds, at every coordinate.)",
  "every grid, history, item and coordinate", "Every state and coordinate.", [BIN+":clear", BIN+":min", BIN+":max", BIN+":max_size"])
HEXF = "include/IntegrationTools/pfield/interpolation/Hexahedron.hh"
P("C107", "3D field values are right in floating-point arithmetic",
  "In IEEE arithmetic with unit roundoff u <= 1/64, a 3D vtk mesh of axis-aligned boxes with double coordinates (extents divided by the number of planes at least 16u times the largest coordinate) is read without error; at every double point of the body, after any history of evaluations, the value is within 256 u M of the trilinear interpolant of a cell containing the point (M the largest corner value); outside the bounding box by more than two bin sizes every evaluation throws std::domain_error. (The bound is violated for stacked cells: binary64 witness, 0 instead of 2/15. It holds where every cell over or under the point within two bin sizes contains it, in particular everywhere in a mesh of one layer.)",
  "every rounding with unit roundoff u, every resolved mesh, data, history and point", "All doubles, meshes and histories; the exact-arithmetic proof does not cover rounding.", [HEXF+":operator()", MESH+":basis_functions", FIELD+":operator()", BIN+":_indices"])
P("C108", "3D nodal values are exact in floating-point arithmetic",
  "In the setting of C107, on a conforming mesh, the value at the position of a node is exactly the node's data value, not merely close to it. (Violated for stacked thin cells: binary64 witness, 0 instead of 1. Holds at every node whose neighbours over and under it within two bin sizes contain it.)",
  "every rounding, every resolved conforming mesh, data, history and node", "All doubles, meshes, nodes and histories.", [HEXF+":operator()", MESH+":basis_functions", FIELD+":operator()"])
P("C109", "3D field derivatives are right in floating-point arithmetic",
  "In the setting of C107, grad(coord, di) is within 384 u M / h of the slope of the trilinear interpolant of a cell containing the point (h the cell's extent in direction di), and the pure second derivatives are exactly 0 at every double point of the body. (The first is violated for stacked cells and, as in 2D, on cell edges; it holds elsewhere.)",
  "every rounding with unit roundoff u, every resolved mesh, data, history, point and direction", "All doubles, meshes and histories.", [HEXF+":grad", HEXF+":hess", FIELD+":grad", FIELD+":hess"])
P("C110", "Fields are linear in their data",
  "If the nodal data of one field of a body are p times those of a second plus q times those of a third, then at every point of the body, and whatever was evaluated on the body before each of the three evaluations, its value, its gradient and its second derivatives are the same combination of the values, gradients and second derivatives of the other two. In 2D and 3D.",
  "every mesh of rectangles or boxes, data, coefficients, point, direction and three histories", "All meshes, data, points and histories.", [FIELD+":operator()", FIELD+":grad", FIELD+":hess", MESH+":basis_functions", BODY+":Body"])
P("C111", "2D fields are continuous",
  "On a conforming 2D mesh of rectangles (no hanging nodes) a field, as a function of the position, is continuous on the whole body, across cell boundaries included.",
  "every conforming mesh, data and history, all real points", "Continuity is a statement about all points and all tolerances.", [QUAD+":operator()", MESH+":basis_functions", FIELD+":operator()"])
P("C112", "3D fields interpolate the nodal data, stay within its range and are single-valued",
  "On a conforming 3D mesh of boxes, in exact arithmetic and after any history: the value at a point is the trilinear interpolant of every cell containing it; the value at a node is the node's data value; and all values lie between the smallest and the largest data value. (Violated for stacked cells: value 6 from data 0 and 1, nodal value 0 instead of 1, and the value depends on the order of the cells in the file. All three hold at points such that every cell over or under the point within one bin size contains it, in particular everywhere in a mesh of one layer.)",
  "every conforming mesh, data, history, point and node", "All meshes, points and histories.", [HEXF+":is_in_range", HEXF+":operator()", MESH+":basis_functions", FIELD+":operator()"])
P("C113", "A library writer that is killed harms nothing, and running it again repairs the library",
  "If a run of lw is killed at any moment before it compiles (while it scans, while it writes), no file but PLibrary.hh and PLibrary.cc in its location has changed; and after any number of runs killed at any moments, with any options, a run that is not killed ends with status 0 and leaves the complete library of the classes declared on the original disk, even when the location is one of the scanned directories and a torn PLibrary.hh lies in it.",
  "every disk, options, listing order, every moment of a run, every sequence of killed runs", "Crash points: every moment of every run.", [LW+":main", LW+":write_header", LW+":write_source", LW+":Collection::scandir"])
P("C114", "A library is replaced as a whole",
  "At every moment of a run of lw the files PLibrary.hh and PLibrary.cc are a complete library: both the old ones, or both the new ones. (Violated by every run: there are moments when the header is empty, when the source is empty, and when the new header stands beside the old source. At every moment at most one of the two is incomplete.)",
  "every disk, valid options, every moment of a run", "Crash points: every moment of every run.", [LW+":main"])
P("C115", "Several threads can evaluate fields",
  "Threads evaluating fields at the same time get the results they would get alone, under every schedule. (True of threads using different bodies, for any number of threads and evaluations, and of threads using different fields of one body at points in the same bin. Violated for threads using different fields of one body at points in different bins: the search for the bin of a point goes through shared scratch memory of the mesh, and with an unfortunate schedule an evaluation returns a wrong value.)",
  "every number of threads, every sequence of evaluations, every schedule, bodies in every state", "Schedules: every interleaving of the steps.", [BIN+":contents", BIN+":indices", ND+":linear_index", FIELD+":operator()"])
TL = "tests/testlib/"
P("C116", "Monomials are accurate in floating-point arithmetic",
  "In arithmetic that rounds every operation with unit roundoff u, a shipped set of monomials, after any history of calls, computes x^k, its derivative and its second derivative with a relative error of at most (1+u)^k - 1. The function it computes for x^k is exactly even or odd, does not decrease for x >= 0, has the value 1 at 1 and maps [-1,1] to itself.",
  "every rounding, size, history, term and argument", "All doubles and histories.", [TL+"Monomial.hh:Monomial"])
P("C117", "Chebyshev polynomials are accurate in floating-point arithmetic",
  "In floating-point arithmetic a shipped set of Chebyshev polynomials computes values of T_k in [-1,1] on [-1,1], with errors of the size of rounding errors. (Violated: T_29 at the double 1042434/1048576 is computed as more than 1 + 2^-17. What holds, after any history: the error is at most (1+u)^(2k) - 1 times the sum of the absolute values of the terms, on [-1,1] at most ((1+u)^(2k) - 1)(5/2)^k; the same for the derivatives; the function computed is exactly even or odd.)",
  "every rounding, size, history, term and argument", "All doubles and histories.", [TL+"Chebyshev.hh:Chebyshev"])
P("C118", "The shipped functions are accurate in floating-point arithmetic",
  "In floating-point arithmetic Quadratic and MyFunc, after any history of calls, return their values, gradients and Hessians with errors of at most (1+u)^m - 1 times the sum of the absolute values of the terms, m at most 5; for arguments that are not negative this is a bound on the relative error.",
  "every rounding, history and argument", "All doubles and histories.", [TL+"Quadratic.hh:Quadratic", TL+"MyFunc.hh:MyFunc"])
P("C119", "Polynomials as series over the shipped monomials are accurate in floating-point arithmetic",
  "A series over shipped sets of monomials, everything in floating-point arithmetic: after any history of calls the value, the gradient and the Hessian are those of the polynomial sum T_ij... x0^i x1^j ..., with an error of at most (1+u)^n - 1 times the sum of the absolute values of the terms, where n is the number of coefficients plus the number of variables plus the degree.",
  "every rounding, number of variables, sizes, coefficients, history and point", "All doubles, coefficients and histories.", [TL+"Monomial.hh:Monomial", SER+":calc_val", SER+":calc_grad_val", SER+":calc_hess_val"])
P("C120", "Fields do not depend on the units and the origin of the coordinates",
  "Read a vtk file, and the same file with coordinate i multiplied by s_i > 0 and shifted by t_i. The second fails exactly when the first does, in the same way. When both are read, then after any evaluations of values the value (or the exception) at every position, in a cell, in a gap or outside, is that at the corresponding position of the original; the derivatives asked for first are those of the original divided by s_i (second derivatives: by s_i s_j); the limits of the body are those of the original in the new units. At points of a body of rectangles or boxes this holds after any evaluations whatever, also different ones on the two bodies. In 2D and 3D.",
  "every list of points, cells and fields (well-formed or not), every positive factors and offsets, history and position", "All meshes, units, points and histories.", [MESH+":read_vtk", MESH+":basis_functions", BIN+":indices", FIELD+":operator()", FIELD+":grad", FIELD+":hess", QUAD+":is_in_range", HEXF+":is_in_range"])
P("C121", "Fields do not depend on the numbering of the nodes",
  "Two conforming 2D meshes whose cells are the same rectangles with the same values at the corners give the same value at every point of the body, whatever the numbering of the nodes, the order of the cells, repeated cells, nodes that belong to no cell, and whatever was evaluated before. In particular, renaming the nodes (coordinates, data and cells accordingly) changes no value.",
  "every conforming mesh, renumbering, data, history and point", "All meshes, numberings, points and histories.", [MESH+":read_vtk", MESH+":basis_functions", FIELD+":operator()"])
P("C122", "With a lock around each evaluation, threads can share a body",
  "Any number of threads evaluate values, gradients and second derivatives of fields of shared bodies at points of the bodies, with a lock around each evaluation. Under every schedule, whatever the order in which the threads get the lock, the results of each thread are those the evaluations give, each by itself, on the body as it was read.",
  "every number of threads and bodies, evaluations at points of the bodies, and every schedule that respects the locks", "Schedules: every interleaving.", [BIN+":contents", BIN+":indices", FIELD+":operator()", FIELD+":grad", FIELD+":hess"])
P("C123", "Every coordinate is answered or refused, infinities and NaN included",
  "An evaluation of a field at a coordinate that is infinite, or finite and beyond the limits of the body's bins, throws domain_error and changes no field, whatever the other coordinates are; at finite coordinates nothing depends on infinities and NaN existing; an evaluation with a NaN coordinate is refused as well. (The last part is violated by every body and every kind of evaluation: NaN passes the range check, and its conversion to int is undefined. It is refused only when an earlier coordinate is beyond the limits.) In 2D and 3D, after any history.",
  "every rectangular mesh, history, evaluation and coordinates, including infinities and NaN", "All doubles and histories.", [BIN+":indices", BIN+":contents", MESH+":basis_functions", FIELD+":operator()", FIELD+":grad", FIELD+":hess"])
P("C124", "The shipped piecewise function on all doubles",
  "In floating-point arithmetic with overflow, infinities and NaN, after any history of calls: at a point without NaN exactly one piece contains the point, it is found, and every component is computed; with x < 0 (also -infinity) and any y (also NaN) the value is x, the gradient (1,0), the Hessian 0, exactly; at any other point with a NaN no piece contains the point and every evaluation throws domain_error and changes nothing. For finite x >= 0 without overflow: the piece is the right one unless x^2+y^2 is within a factor (1+-u)^2 of 1/4; in the disc the value has relative error at most (1+u)^2 - 1, the gradient u, and the Hessian is exact; outside, the error of the value is bounded by that of pow and the roundings.",
  "every rounding, history and point, including infinities and NaN", "All doubles and histories.", [TL+"MyPieceWiseFunc.hh:MyPieceWiseFunc", PW+"PPieceWiseFuncBase.hh:piece", PW+"Piece.hh:in_piece"])
P("C125", "Coefficients written as text are the coefficients read",
  "Coefficients (doubles) written with print_coeff to a text stream and read back with read_coeff into a series of the same shape are the same doubles. (Violated with a stream as it is: it prints 6 digits, and the double 1/3 comes back as 0.333333 in every series. Every coefficient comes back as the nearest number with as many decimal digits as the stream's precision, rounded; with a precision of 17 or more it comes back exactly, and so do the numbers of a vtk file.)",
  "every shape, every list of coefficients, every precision", "All doubles and shapes.", [SER+":print_coeff", SER+":read_coeff", MESH+":read_vtk", BODY+":read_vtk"])
P("C126", "From the text of a vtk file to the values computed in doubles",
  "A vtk file of decimal numbers describing a conforming 2D mesh of rectangles, or a conforming one-layer mesh of boxes, in which different coordinates remain different as doubles and the body is resolved in doubles, is read without an error: the fields hold the decimals of the file rounded to doubles. After any history of evaluations, at every double point of a cell the value computed in floating-point arithmetic is within (66 + 8k)uM (3D: (258 + 12k)uM) of the bilinear (trilinear) interpolant of the decimal numbers written in the file, where M bounds the values of the field, u is the unit roundoff and k is the distance of the cell from the origin in units of the cell. Reading a well-formed file always does what building the body from its points, cells and fields does, in any arithmetic.",
  "every rounding, file, layout of the file, mesh, field, history and point", "All files, doubles and histories.", [BODY+":read_vtk", MESH+":read_vtk", FIELD+":operator()", BIN+":indices", QUAD+":is_in_range", HEXF+":is_in_range"])
P("C127", "Fields on doubles with their exponent range",
  "On doubles with overflow and (gradual or abrupt) underflow, when coordinates of points and evaluations are 0 or between 2^-a and 2^m in magnitude and values of fields 0 or between 2^-V and 2^V, with 3(a+m) + V <= 806 (for instance 1e-30 to 1e30 and 1e-60 to 1e60), no operation of reading a body or evaluating a value, gradient or second derivative leaves the range of normal doubles: the body read and the outcome of every evaluation, after any history, are those of arithmetic with an unbounded exponent, whatever the cells are, in 2D and 3D. So legal meshes are read, values are within 64uM (3D, one layer: 256uM) of the interpolant, nodal values of a conforming 2D mesh are exact, and the values computed from the text of a file are within the bounds of C126.",
  "every arithmetic that rounds numbers in the normal range correctly, mesh, fields, history and evaluation of moderate size", "All doubles and histories.", [BODY+":read_vtk", MESH+":read_vtk", MESH+":basis_functions", FIELD+":operator()", FIELD+":grad", FIELD+":hess", BIN+":indices", QUAD+":is_in_range", HEXF+":is_in_range"])
P("C128", "Numbers in files may be in any decimal notation",
  "A number in a vtk file or a file of coefficients may be written with or without a sign, a decimal point, leading or trailing zeros or an exponent: a text is read as a number exactly if it is such a numeral, and the number read is the value of the numeral, rounded to a double. Whatever a file contains, what is taken from it as a number is such a numeral; a numeral that lacks digits (in the mantissa or behind the e) is refused. What print_coeff writes for a number is such a numeral. So two vtk files with the same numbers in different notations and layouts give the same body.",
  "every text, numeral, file and rounding", "All texts and notations.", [BODY+":read_vtk", MESH+":read_vtk", SER+":read_coeff", SER+":print_coeff"])
P("C129", "A field filled from a smooth function is close to it everywhere",
  "If the data of a body of rectangles are the values of a function at the nodes, then anywhere on the body the value of the field differs from the function by at most (M0*H0^2 + M1*H1^2)/8, where Mi bounds the magnitude of the second derivative in direction i and Hi the widths of the cells; a gradient component differs from the derivative of the function by at most what that derivative varies over a cell, and the value by at most what the function varies over a cell. In 3D the bound is (M0*H0^2 + M1*H1^2)/8 + M2*(H2^2/8 + m*(H2+m)/2) with m the height of the body divided by the number of its levels, also where the hexahedron of another layer is used; and at points no other layer is near (for instance on a body of one layer) (M0*H0^2 + M1*H1^2 + M2*H2^2)/8, with the same bounds for gradient and value as in 2D. With the nodal values rounded to doubles and every operation of the evaluation rounded, 66*u*B is added in 2D (261*u*B in 3D, at points two margins away from other layers), for data of magnitude at most B and a rounding error u.",
  "every mesh, function, point and call history", "All functions and points: an error bound.", [BODY+":read_vtk", MESH+":bin", FIELD+":PField", QUAD+":QuadValues", HEXF+":HexahedronValues"])
P("C130", "The numbers of the nodes do not matter, in any arithmetic",
  "Read a vtk file, and the same file with its nodes renumbered (points and field data reordered, the node numbers of the cells changed accordingly). Reading fails for both, in the same way, or for neither. When both are read, the limits of the bodies are the same, and after the same evaluations every evaluation of every field - value, derivative or second derivative, at a point of a cell, in a gap, between layers or outside - has the same outcome, and the stored results are the same; in exact and in floating-point arithmetic, in 2D and 3D, whether the file makes sense or not. In 3D also the order of the cells, repeated cells and nodes of no cell do not matter at points to which no other layer is near.",
  "every list of points, cells and fields (well-formed or not), renumbering, rounding, history and evaluation", "All meshes, numberings, points and histories.", [BODY+":read_vtk", MESH+":read_vtk", MESH+":basis_functions", BIN+":indices", FIELD+":operator()", FIELD+":grad", FIELD+":hess"])
P("C131", "Factors, order and signs of the data survive rounding",
  "Multiply the data of the fields of a vtk file by powers of two or their negatives, a factor for each field: the file is read or refused as before, and after the same evaluations every value and derivative, computed in floating-point arithmetic at any position, is exactly the old one times the factor (without overflow and underflow); 2D and 3D, whether the file makes sense or not. If the data of one field are nowhere above those of another on the same mesh, then at every point of the body, whatever was evaluated before, the computed value of the first is not above that of the second; a field without negative data has no negative value, one without positive data no positive value; and with data between lo and hi the value is between lo and hi up to 64*u*max(|lo|,|hi|). (In 3D, order and signs hold at points to which no other layer is near. Elsewhere they are violated: the value of a field with data 0 and 1 can be -5.)",
  "every file, factors, history and position; every legal mesh, data, history and point", "All files, data, histories and points in rounded arithmetic.", [BODY+":read_vtk", MESH+":basis_functions", FIELD+":operator()", FIELD+":grad", FIELD+":hess", QUAD+":QuadValues", HEXF+":HexahedronValues"])
P("C132", "Units of the coordinates that are powers of two survive rounding",
  "Multiply the coordinates of a vtk file by positive powers of two, one for each direction. In floating-point arithmetic (without overflow and underflow) the file is read or refused as before, its limits are exactly the old ones in the new units, and after evaluations of values anywhere every value, at every position (in a cell, in a gap, outside), is exactly the old one; a derivative or second derivative asked of the body as read, at any position, is exactly the old one divided by the factors. At points of legal bodies, and for any file at positions where the body as read gives an exception or a value other than 0, this holds for values and derivatives after any, also different, histories on the two bodies. 2D and 3D. (With other factors, such as metres to millimetres, values change in the last digits.)",
  "every file, factors, history and position", "All files, histories and points in rounded arithmetic.", [BODY+":read_vtk", MESH+":read_vtk", MESH+":basis_functions", BIN+":indices", FIELD+":operator()", FIELD+":grad", FIELD+":hess"])
P("C133", "What an evaluation remembers of earlier ones",
  "Read any vtk file (whatever its cells are) and compute in any arithmetic in which 0 is rounded to 0. For every position, either no evaluation there - a value, derivative or second derivative of any field - ever depends on what was evaluated before, in any history: it has the outcome it has on the body as read, number or exception; or the position is one where the body as read gives 0 for everything (or the evaluation is undefined behaviour as read, as for a field without data). So an exception, or a number other than 0, once is what there is always. No evaluation changes the limits of the body, the number of fields, their names or their data. 2D and 3D.",
  "every file, rounding, history and position", "All files, histories and positions.", [BIN+":indices", BIN+":contents", MESH+":basis_functions", FIELD+":operator()", FIELD+":grad", FIELD+":hess"])
P("C134", "Series and shipped functions on doubles with their exponent range",
  "On doubles with overflow and (gradual or abrupt) underflow: when the coefficients of a series are 0 or between 2^-V and 2^V in magnitude, and the values, derivatives and second derivatives of its basis functions at a point are 0 or between 2^-B and 2^B, with V + (number of variables)*B <= 970, then after any history of calls value, gradient and Hessian of the series are computed as with an unbounded exponent, so the error bounds of C102 hold with u = 2^-53. The shipped monomial x^k and its derivatives have a relative error of at most (1+u)^k - 1 at arguments that are 0 or between 2^-A and 2^A, for k*A + 10 <= 1022; a series over shipped monomials of degree at most N in each of d variables meets the bounds of C119 when V + d*(N*A + 10) <= 970. The shipped Quadratic meets the bounds of C118 at arguments that are 0 or between 2^-459 and 2^459, MyFunc between 2^-288 and 2^288.",
  "every arithmetic that rounds numbers in the normal range correctly, basis, coefficients, arguments of moderate size and history", "All doubles and histories.", [SER+":calc_val", SER+":calc_grad_val", SER+":calc_hess_val", TL+"Monomial.hh:Monomial", TL+"Quadratic.hh:Quadratic", TL+"MyFunc.hh:MyFunc"])
P("C135", "Insertion and reading end in floating-point arithmetic",
  "In every arithmetic that keeps the order, 0 and numbers already rounded (in particular on doubles with gradual underflow and a biggest double): an insertion into a bin made with non-negative numbers of bins ends, whatever the widths, the history of insertions and the coordinates; and reading a vtk file of n characters ends after at most n + 2 passes of each loop, unless the stream has failed before the end of the file. (Violated: a file that cannot be opened is never done with, nor one with something else in place of a number.)",
  "every order-preserving rounding, bin, history and coordinates; every file and kind of element", "Termination for all inputs; the arithmetic is not known exactly.", [BIN+":add_range", BIN+":indices", BODY+":read_vtk", MESH+":read_vtk"])
P("C136", "Several threads can evaluate series",
  "Several threads evaluate values, gradients and Hessians of series. Whatever the schedule, each thread finishes after a number of steps that depends only on its own evaluations, and has a result for each of them. A thread with a series of its own (series are copied by value) gets the values and derivatives of that series, whatever the other threads do with theirs; threads that share series and hold a lock during each evaluation all get the values and derivatives of the series. Threads that share a series without a lock get right results as well. (The last part is violated: two threads that evaluate one series at the same point can get 180 and 90 instead of 90 and 90, since sums are accumulated in the series.)",
  "every number of threads and series, basis, coefficients, evaluations, and every schedule", "Schedules: every interleaving.", [SER+":operator()", SER+":eval_grad", SER+":eval_hess", SER+":eval_basis", SER+":calc_val", SER+":calc_grad_val", SER+":calc_hess_val"])
P("C137", "Basis functions that throw do no harm to a series",
  "A basis function written by a user may throw at some arguments. After any history of evaluations of a series, failed ones included: an evaluation (value, gradient, Hessian) none of whose basis functions throws at the point gives the value or derivative of the series; one with a basis function that throws passes an exception of one of them to the caller and gives no number, and the stored value, gradient, Hessian and coefficients are as they were before it.",
  "every basis, set of arguments at which functions throw, coefficients, history and point", "Exceptions at every point of every history.", [SER+":operator()", SER+":eval_grad", SER+":eval_hess", SER+":eval_basis", BS+":eval", BS+":eval_grad", BS+":eval_hess"])
P("C138", "A mesh of rectangles of any size is read",
  "Every mesh of axis-aligned rectangular cells can be read, with any fields. (Violated: reading succeeds exactly when the product, over the directions, of the number of distinct coordinate values plus two is at most 2147483647; otherwise the number of bins overflows an int and the behaviour is undefined, whatever the cells are, for instance with 46340 unit squares corner to corner along a diagonal, 185360 points; in floating-point arithmetic the same, for meshes whose distinct coordinates are far enough apart for the arithmetic.)",
  "every list of points, cells and fields, 2D and 3D", "Meshes of every size; the smallest bad ones are too big for tests.", [MESH+":read_vtk", BODY+":read_vtk", BIN+":Bin", ND+":calc_volume"])
P("C139", "Where cells meet, the cell listed first in the file answers",
  "At a point that several cells contain (an edge, a corner, overlapping cells) every evaluation of every field, after any history, uses the first cell in the file that contains the point: in 2D the value is its bilinear interpolant there, the derivatives and second derivatives are the slopes of this interpolant. In 3D values and first derivatives are those of the trilinear interpolant of the first cell in the file that is over or under the point (or contains it) and reaches the layer of the point, where layers have the height of the mesh divided by its number of distinct heights; if every cell over or under the point whose vertical range comes near it contains it, this is the first cell that contains the point (otherwise it may be an extrapolation, C28).",
  "every legal mesh, data, history, field and point of the body", "All meshes and histories; the choice depends on bins and loops.", [MESH+":basis_functions", MESH+":read_vtk", BIN+":add_range", FIELD+":operator()", FIELD+":grad", FIELD+":hess"])
P("C140", "Turned, mirrored and stretched bodies",
  "Turn a body by right angles, mirror it, stretch and move it along the axes (a permutation of the axes, a factor not 0, possibly negative, and an offset for each direction; cell number k keeps its nodes, listed in the order the format asks for): in 2D, at every point of the body, also on edges, and after any, also different, histories on the two bodies, the value of every field is the one at the corresponding point of the original, and its first and second derivatives are those of the original in the corresponding directions divided by the factors. In 3D the same holds for values and first derivatives at points such that, in both bodies, every cell over or under the point whose vertical range comes near it contains it.",
  "every legal mesh, permutation of axes, factors, offsets, data, histories and point of the body", "All meshes, symmetries and histories.", [MESH+":basis_functions", MESH+":read_vtk", QUAD+":is_in_range", QUAD+":QuadValues", HEXF+":HexahedronValues", FIELD+":operator()", FIELD+":grad", FIELD+":hess"])
P("C141", "Sums of Chebyshev polynomials as series are accurate in floating-point arithmetic",
  "A series over shipped sets of Chebyshev polynomials, everything in floating-point arithmetic: after any history of calls the value, the gradient and the Hessian are those of sum C_ij... T_i(x0) T_j(x1) ..., with an error of at most (1+u)^n - 1 times the sum of the absolute values of all monomials of all terms, where n is the number of coefficients plus the number of variables plus twice the degree; on [-1,1] the error of the value is at most ((1+u)^n - 1) * sum |C_ij...| (5/2)^(i+j+...). On doubles with overflow and underflow this holds, with u = 2^-53, when the coefficients are 0 or between 2^-V and 2^V in magnitude, the coordinates 0 or between 2^-A and 2^A, and V + d*(N*A + 55) <= 970 for d variables and polynomials of degree at most N; for the polynomials themselves when k*A + 55 <= 1022.",
  "every rounding, number of variables, sizes, coefficients, history and point", "All doubles, coefficients and histories.", [TL+"Chebyshev.hh:Chebyshev", SER+":calc_val", SER+":calc_grad_val", SER+":calc_hess_val"])
P("C142", "Several threads can evaluate functions",
  "Several threads evaluate values, gradients and Hessians of functions made of component functions, by a call that returns the number or by an evaluation and a getter after it. Whatever the schedule, each thread finishes after a number of steps that depends only on its own evaluations, and has a result for each of them. If the threads hold a lock during each evaluation (and the getter after it), each gets what the component functions give at its points, or the exception of the first that throws. Without locks a thread gets this as well if the other threads that evaluate the same function compute other components, or common components only where these have the same value; in particular if they evaluate other functions. It gets this without locks also when the threads compute the same component at different points. (The last part is violated: the number is stored in the function and read back from there, so the thread that asked for the square of 3 can get 25, which another thread asked for.)",
  "every number of threads and functions, component functions, evaluations, and every schedule", "Schedules: every interleaving.", [PF+"PSimpleBase.hh:operator()", PF+"PSimpleFunction.hh:operator()", PF+"PFlexFunction.hh:operator()", PF+"PFlexFunction.hh:grad", PF+"PFlexFunction.hh:hess", PF+"PFlexFunction.hh:eval_grad", PF+"PFlexFunction.hh:eval_hess"])
P("C143", "Several threads can evaluate piecewise functions",
  "Several threads ask piecewise functions made of conditions and expressions for their value at a point, for whether a point is in a piece, or for the index of its piece. Whatever the schedule, each thread finishes after a number of steps that depends only on its function and the number of its queries. If the threads hold a lock during each call, each gets what the first piece whose conditions hold at its point gives (or std::domain_error where there is none, or the exception of the first condition or expression that throws), whatever was evaluated before. Without locks they get this as well if no condition is true for one thread and false for another and no two threads ask for different values; in particular if each thread has a function of its own. They get this without locks also otherwise. (The last part is violated: conditions store their outcome and read it back, so of two threads that evaluate a function that is -1 below 0 and 1 from there on, the one at 1 can get -1, and the one at -1 can get std::domain_error.)",
  "every number of threads and functions, pieces, conditions, expressions, points, and every schedule", "Schedules: every interleaving.", [PW+"PPieceWiseSimpleBase.hh:eval", PW+"PPieceWiseSimpleBase.hh:in_piece", PW+"PPieceWiseSimpleBase.hh:piece", PW+"SimplePiece.hh:in_piece", PW+"SimplePiece.hh:eval", PF+"PSimpleBase.hh:operator()"])
P("C144", "Bodies can be copied and assigned",
  "A C++ program makes bodies, reads files into them, copies and assigns them, evaluates fields of originals and copies, with calls that return a number or keep it for getters, and destroys them, in any order: each body is a value of its own, equal to its source when copied, and no operation on one changes another. In every history in which, as long as there are copies of a body (or copies of its copies), nothing is read into it or assigned to it (except one of the copies) and it is not destroyed, nothing is read into a copy, and only bodies without cells are destroyed, every call has the outcome it would have if each copy were a body of its own, in any arithmetic. (Violated otherwise: the fields of a copy point to the mesh of the source. After a = b a copy made of a before is computed on the cells of b; after a second file is read into a, evaluating the copy writes out of bounds; destroying a body with cells is undefined.)",
  "every history of construction, reading, copying, assignment, evaluation and destruction, every mesh, field, point and rounding", "All histories.", [BODY+":Body", BODY+":read_vtk", MESH+":~Mesh", MESH+":Mesh", FIELD+":PField", FIELD+":operator()", FIELD+":grad", FIELD+":hess"])
P("C145", "3D field Hessian is the second derivative of the interpolant",
  "At every point of the body hess(coord, di, dj) of a 3D field is the second derivative of the trilinear interpolant of the cell used, and is symmetric. (Violated: repeated directions give 0 as they should and the Hessian is symmetric, but a mixed component is the sum of the mixed slopes on the two opposite faces of the cell; for data sampled from x*y it is 2 instead of 1 at every point of every mesh.)",
  "every well-formed 3D mesh, every nodal data, every point of the body, every earlier history", "Derivatives, and every mesh, point and history.", [FIELD+":hess", HEXF+":Hexahedron_hess_0_1"])
P("C146", "3D fields are continuous",
  "On a 3D mesh whose cells meet in whole faces, the values of a field, after any history of calls, form a continuous function on the body. (Violated for cells on top of each other: two unit cubes, data 0 up to z = 1 and 1 at z = 2, jump from 0 to 1/3 at z = 4/3, where a layer of bins ends. Holds for the points at which every cell over or under the point whose vertical range comes near it contains it, and for meshes of one layer.)",
  "every well-formed 3D mesh of cells that meet in whole faces, nodal data, history and point", "Continuity; every mesh, point and history.", [FIELD+":operator()", MESH+":basis_functions", MESH+":read_vtk"])
P("C147", "lw --compile calls the compiler on the files it wrote and runs nothing else",
  "After writing its files lw --compile hands three command lines to the shell. The shell executes three commands, each a call of the compiler given: it compiles the PLibrary.cc written, with the flags and the directories as search paths, compiles PExtern.cc, and links the two; every path reaches the compiler as one argument, and nothing else is executed. (Holds for paths of letters, digits and / . _ - + , : @ % =. Violated otherwise: paths are not quoted; with a location 'my lib' the compiler gets 'my' and 'lib/PLibrary.cc', and a directory called 'a;touch b' makes the shell execute 'touch b'.)",
  "every compiler name, flags, location, list of directories, and files in them", "All names a file system allows.", ["src/lw/lw.cpp:main"])
P("C148", "Data are felt only in the cells around their node",
  "Two fields on the same mesh, of one body or of two. At a point of the body where their data are the same at the nodes of all cells that contain the point, value, derivatives and second derivatives are the same, whatever was evaluated before on either; in floating-point arithmetic they are the same numbers. Where the data at these nodes differ by at most e, the values differ by at most e. So changing the value at one node changes a field only in the cells that have this node, and by no more than the change. (In 3D this holds at points such that every cell over or under the point whose vertical range comes near it contains it, and everywhere if the cells over or under the point that reach its layer of bins are counted as well; elsewhere it is violated: with two unit cubes on top of each other, adding 1 at a bottom corner of the lower one changes the value in the upper one, at height 5/4, by -1/16.)",
  "every legal mesh, data, history and point of the body, 2D and 3D", "All meshes, data and histories.", [FIELD+":operator()", FIELD+":grad", FIELD+":hess", MESH+":basis_functions"])
P("C149", "Refining a mesh does not change a field",
  "Cut cells of a body whose cells meet in whole faces into smaller ones (a second body each of whose cells is part of a cell of the first) and give the second body the values of a field of the first at its nodes as data. At every point of the second body the values of the two fields are then the same, whatever was evaluated before on either; in 2D first and second derivatives are the same as well at points that are in only one cell of the first body. (In 3D this holds for values and first derivatives where, in both bodies, every cell over or under the point whose vertical range comes near it contains it, and where the same is true, in the first body, of the nodes of the second. Violated otherwise: two unit cubes on top of each other, data 0 up to z = 1 and 1 at z = 2; cutting the upper one at z = 5/4 changes the value at z = 7/4 from 3/4 to 2/3.)",
  "every legal mesh, refinement, data, histories and point of the body, 2D and 3D", "All meshes, refinements and histories.", [FIELD+":operator()", FIELD+":grad", FIELD+":hess", MESH+":basis_functions"])
P("C150", "Lists of pieces that describe the same function give the same function",
  "Piecewise functions of pieces with conditions that do not throw. If pieces that apply at the same point have the same value (gradient, Hessian) there, the order in which they are listed does not matter: every evaluation has the same outcome, whatever was evaluated before on either, and so have the functions given by simplefunction, grad_simplefunction and hess_simplefunction; in_piece never depends on the order. If no two pieces overlap, the getters have the same outcome as well after the same calls. The order of the conditions of a piece does not matter, and a piece that applies only where one listed before applies can be left out.",
  "every list of pieces, order, point, component and history of calls", "All functions, conditions, orders and histories.", [PW+"PPieceWiseFuncBase.hh:operator()", PW+"PPieceWiseFuncBase.hh:in_piece", PW+"PPieceWiseFuncBase.hh:piece", PW+"Piece.hh:in_piece", PW+"PPieceWiseSimpleBase.hh:eval"])
P("C151", "Series with their variables in another order, and over longer basis sets",
  "Two series over the same basis sets in different orders (variable i of the second is variable p(i) of the first) whose coefficients correspond: values, gradients and Hessians, after eval_grad and eval_hess, of the second are those of the first at the corresponding point, in the corresponding directions. Two series over basis sets of which those of the second begin with the functions of those of the first, with the same coefficients and 0 for the functions added: values, gradients and Hessians are the same at every point. Both hold whatever was evaluated before with either.",
  "every number of variables, basis sets, permutation, coefficients, history and point", "All sizes, numbers of variables, coefficients and histories.", [SER+":operator()", SER+":eval_grad", SER+":eval_hess", SER+":calc_val", SER+":calc_grad_val", SER+":calc_hess_val"])
P("C152", "The order of the cells does not matter",
  "Two bodies are made of the same nodes and the same cells, listed in different orders (or some of them more than once), and have fields with the same data. If the cells meet in whole faces, the values of the fields are the same at every point of the body, whatever was evaluated before on either. At points that are in only one cell values, first and second derivatives are the same for any cells, and the same numbers in floating-point arithmetic. Where one throws because the point is too far outside, so does the other. (In 3D this holds where every cell over or under the point whose vertical range comes near it contains it. Violated otherwise: with two unit cubes on top of each other, data 0 up to z = 1 and 1 at z = 2, the value at height 5/4 is 0 if the lower one is listed first and 1/4 if the upper one is.)",
  "every legal mesh, list of its cells, data, histories and point, 2D and 3D", "All meshes, orders, data and histories.", [FIELD+":operator()", FIELD+":grad", FIELD+":hess", MESH+":basis_functions", MESH+":read_vtk"])
P("C153", "A library depends only on the classes declared",
  "lw writes a library for directories of headers. The order of the directories, of the files in them, of the lines in these and of the types given for VarContainer does not matter: both runs are accepted or both end with status 1, and the two libraries have the same functions, one for one, with the same signatures and the same behaviour for every name, and include the same headers. Files that are not headers of a library, and lines that declare no class, can be added or left out: the files written at the same time are the same.",
  "all directories, files, lines, orders and lists of types for VarContainer (names and types free of quotes, backslashes and newlines)", "All directories and orders.", [LW+":Collection", LW+":scanline_for_class", LW+":write_header", LW+":write_source"])
P("C154", "Piecewise functions can be nested",
  "The expression of a piece may be a piecewise function, its expressions again, and so on. At every point at which no condition throws, evaluation follows the first piece whose conditions hold at every level: it gives what the expression reached gives, and throws std::domain_error if it comes to a piecewise function with no piece for the point, even if later pieces of the outer ones have it (in_piece is true there). Wherever an expression is reached, the function made of these expressions alone, each with all conditions on the way to it, in the same order, gives the same.",
  "every nesting, of any depth and width, conditions, expressions and point", "Nestings of every depth.", [PW+"PPieceWiseSimpleBase.hh:eval", PW+"PPieceWiseSimpleBase.hh:in_piece", PW+"SimplePiece.hh:in_piece", PW+"SimplePiece.hh:eval"])
