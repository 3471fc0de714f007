# Formal model of prisms-center/IntegrationTools in Lean 4

(Written by `tools/design.py` from `tools/design_head.md`, `tools/design_plan.txt`, `properties.jsonl` and `MANIFEST.json`.)

## 1. Trusted base

* Lean 4.33.0's kernel, and the Lean/Mathlib libraries as checked by it.
* Axioms: every property theorem depends on at most `propext`, `Classical.choice`, `Quot.sound` (Lean's standard three). No axiom is
  added; no compiled evaluation is used (`decide +kernel` is evaluation by the kernel).
* The reading of the C++ and Python: each definition in `lean/Verif/Model/` cites the file and lines of `/repo` it models. The code is not
  compiled or executed here, so the faithfulness of that reading is trusted. `Model/TestlibData.lean` is generated from the headers by
  `tools/gen_testlib.py` (verbatim copies of expressions and strings).
* The specifications in `lean/Verif/Spec/`, which do not mention the model, and the statements in `lean/Verif/Props/`.
* The semantics given to C++ in `Model/Core.lean`:
  * `std::vector` is a `List`; `v[i]` outside `[0,size)` is the outcome `ub oob`;
  * `int` is `Int` with arithmetic results checked against `[-2^31, 2^31-1]`; outside is `ub overflow`; `/` truncates, division by zero is
    `ub divZero`;
  * NULL dereference, use after free, double free, deleting through a wrong type, calling with wrong arguments, reading an uninitialised
    object and flowing off the end of a non-void function are distinct `ub` outcomes. Undefined behaviour is an outcome, and the theorems say
    where it happens; nothing is claimed about a program after it;
  * exceptions keep the object state reached when they were thrown; `exit(n)` is the outcome `exit n`; a loop that does not end is the
    outcome `diverge` (for every bound on the number of passes);
  * `double` is modelled **exactly**, by an arbitrary linearly ordered field `K` (with floor where needed); `ℚ` in examples and `ℝ` where
    derivatives or roots are mentioned. Rounding, NaN, infinities and `-0` are not modelled unless a property says so: numeric claims read
    "in exact arithmetic";
  * C93-C96, C102, C107-C109, C116-C119, C126, C127, C129-C134 and C141 (as far as they speak of rounding) use second models, `Model/Rounded.lean`, `Model/RoundedSeries.lean` and `Model/RoundedTestlib.lean` (the objects of `Model/Testlib.lean` with rounding operations), in which the result of every `+ - * /` on doubles is rounded by a function of which
    only the axioms of `Spec/Rounding.lean` are used (monotone, idempotent, odd, fixes 1, relative error at most `u`);
    `nearestEven p` is proved to satisfy them for every precision `p`. Overflow, underflow, NaN, extended precision and fused operations are
    outside that model; C127 shows that with coordinates and values of moderate size the results about fields (C94-C96, C107-C109, C126), and C134 and C141 that those about series and shipped functions (C102, C116-C119), hold
    for doubles with their exponent range, because no operation overflows or underflows. With `rnd = id` they are the exact models (`Fl.rounded_id`, `Fl.Ser.rounded_id`);
  * the conversion between doubles and characters is a parameter (`scan`, `fmt`, `parse`), with a round-trip hypothesis where needed (C125 models the conversions of the standard library and shows when the hypothesis holds);
  * memory exhaustion (`bad_alloc`), I/O failures other than those described, and threads (except in C115, C122, `Model/Threads.lean`, C136, `Model/ThreadsSeries.lean`, C142, `Model/ThreadsFunc.lean`, and C143, `Model/ThreadsPiecewise.lean`) are not modelled.

## 2. What is modelled

| code | model |
|---|---|
| `datastruc/PNDArray.hh` (all members) | `Model/NDArray.lean` |
| `datastruc/Bin.hh` (all members but the unused private `max_indices`) | `Model/Bin.lean` |
| `pfield/Coordinate.hh` | `Model/Coordinate.lean` (elsewhere a coordinate is a function `Fin DIM → K`) |
| `pfield/interpolation/{Interpolator,Quad,Hexahedron}.hh` | `Model/Interp.lean`; the element functions as objects `Model/ElemObject.lean` |
| `pfield/{Mesh,PField,Body}.hh` | `Model/Mesh.lean`, `Model/Field.lean`, text level `Model/Stream.lean`, `Model/Vtk.lean`; ownership `Model/BodyExtern.lean` |
| Bin.hh, Quad.hh, Hexahedron.hh, Mesh.hh, PField.hh in floating-point arithmetic (2D and 3D: construction, value, grad, hess) | `Model/Rounded.lean` |
| Bin.hh, PNDArray.hh, Mesh.hh, PField.hh: the evaluation step by step, for threads (sequentially consistent) | `Model/Threads.lean` |
| PSeriesFunction.hh, PBasisSetBase.hh: the evaluation access by access, for threads (sequentially consistent) | `Model/ThreadsSeries.lean` |
| PFlexFunction.hh, PSimpleFunction.hh, PSimpleBase.hh: the evaluation access by access, for threads (sequentially consistent) | `Model/ThreadsFunc.lean` |
| PPieceWiseSimpleBase.hh, SimplePiece.hh, PSimpleBase.hh: the evaluation access by access, for threads (sequentially consistent; a condition or an expression is taken to store nothing but its own `_val`) | `Model/ThreadsPiecewise.lean`, `Model/Conc.lean` |
| Body.hh, Mesh.hh, PField.hh: bodies as C++ variables (implicit copy and assignment, destructor; interpolators are shared by pointer, in the model by value, as nothing changes them) | `Model/BodyCopy.lean` |
| the same with basis functions that throw | `Model/SeriesThrow.lean` |
| `pfunction/{PSimpleBase,PSimpleFunction,PFuncBase,PFunction,PBasisSet,PFlexFunction}.hh` | `Model/Simple.lean`, `Model/Handle.lean`, `Model/Func.lean` |
| `pfunction/{PBasisSetBase,PSeriesFunction}.hh` | `Model/Series.lean`, `Model/SeriesOps.lean` |
| tests/testlib: Monomial, Chebyshev, Quadratic, MyFunc in floating-point arithmetic | `Model/RoundedTestlib.lean` |
| Bin.hh, Mesh.hh, PField.hh: the bin lookup of an evaluation with infinite and NaN coordinates (finite arithmetic exact) | `Model/Special.lean` |
| tests/testlib/MyPieceWiseFunc.hh over any arithmetic, IEEE doubles with overflow, infinities and NaN among them (`pow` any function) | `Model/SpecialPiecewise.lean` |
| C++ standard library: `ostream << double` with a given precision, `istream >> double` (as print_coeff, read_coeff and the vtk readers use them) | `Model/NumText.lean` |
| Body.hh `read_vtk` and Mesh.hh `read_vtk` with every arithmetic operation and every number of the file rounded | `Model/RoundedVtk.lean` (over `Model/Vtk.lean`, `Model/NumText.lean`, `Model/Rounded.lean`) |
| PSeriesFunction.hh in floating-point arithmetic (evaluation, derivatives, basis products; basis functions with errors) | `Model/RoundedSeries.lean` |
| `piecewise/*.hh` | `Model/Piecewise.lean` |
| `src/lw/lw.cpp` (file filters, regular expression, collection, generated header and source; their text; `main`, also interrupted at any moment before compiling) | `Model/Library.lean`, `Model/LwText.lean`, `Model/LwMain.lean` |
| `src/c/PExtern.cc` (`write_pextern_cc` in `lw.cpp` writes the same text) | `Model/Extern.lean`, `Model/BodyExtern.lean` |
| `src/python/pfunction/*.py` | `Model/Python.lean`, `Model/PyField.lean`, `Model/PyObject.lean` |
| `tests/testlib/{Monomial,Chebyshev,Quadratic,MyFunc,MyPieceWiseFunc}.hh` (the shipped generated library) | `Model/Testlib*.lean` |

Not modelled: parsing the command line, messages and the effect of compiler calls of `lw` (`Collection::write`, `now`), the build system, `BP_StopWatch`, the test programs, `pextern_test.py`. Members that do not compile when instantiated
(`PBasisSet::set`, `PBasisSet::description`) have no behaviour to model. Simplifications are stated in the comment of the definition or at
the head of the file.

## 3. Method

Executable definitions in `Model/`; small independent specifications in `Spec/`; helper lemmas in `Lemmas/`; property theorems in `Props/`,
each followed by an `example` showing that a concrete, non-trivial case meets its hypotheses. Stateful properties quantify over histories
(lists of calls, exceptions caught by the caller) and are proved by induction with an invariant, or by refinement to a specification without
addresses. Loops without an evident bound get fuel and a theorem that the fuel suffices.

Properties that the code violates get (a) theorems with suffix `_violated` that exhibit the violation, where possible for every input rather
than one, and (b) the strongest true part, suffix `_partial`; the status is then `partial`, since the full claim is false of the code.

The theorems are tested against seeded bugs in a scratch copy: `seeded/LOG.jsonl`.
