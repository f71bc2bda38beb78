# Formal model of lanl/ELEMENTS in Lean 4

## 1. Approach

The code in `/repo` is read as text and modelled, function by function, as total computable Lean
functions under `lean/Verif/<Area>/Model.lean`. Each definition cites the file and lines it models.
For each area:

* `Model.lean`     – the code, as functions;
* `Spec.lean`      – (where needed) the small independent specification the theorems refer to;
* `Lemmas.lean`    – helper lemmas;
* `Theorems.lean`  – only the property theorems, each followed by an `example` that a concrete
                     non-trivial case meets its hypotheses.

### Modelling conventions

| C++ | model |
|---|---|
| `double`, `real_t`, `Real`, `NumType` | an arbitrary field `K` (ordered where the code compares); theorems therefore hold over `ℝ` and over `ℚ`. **Rounding, overflow, NaN are not modelled** except in `Verif/Fp` (C88 on), where every operation is followed by a rounding (unbounded exponent range, no fused operations); a division by an exact zero is either excluded by an explicit hypothesis or made a distinct outcome (`none`). |
| `size_t`, `SizeType` | `ℕ` when the property is not about wrap-around; `UInt64`/mod 2^64 arithmetic where it is (mixed radix, derivative encoding, coincident vertex search) |
| `int` | `ℕ`/`ℤ`; overflow is not modelled unless said so (`Verif/Int32`, C90, checks the hash keys of swage; C03 the derivative encoder) |
| in-place arrays | functions `ℕ → K` with point update, or `Array`/`List`; out-of-bounds access is a distinct outcome where the property is about it |
| `for` loops | `Nat.fold`-style recursion or structural recursion over the loop counter, in source order |
| undefined behaviour | `none` / `.ub` |
| LAPACK/BLAS/VTK | `dgemv`/`dgemm` are modelled by the reference algorithm (C50); LAPACK and VTK are not modelled: where a property needs them they are parameters with a stated contract (VTK: point numbering, rounding of the point array, readers and writers) |

### Trusted base

* Lean 4.33.0 kernel; axioms `propext`, `Classical.choice`, `Quot.sound` only (checked with
  `#print axioms` for each theorem named in MANIFEST.json by vcheck).
* Mathlib definitions used in statements (polynomials, matrices, derivatives, finite sums).
* The faithfulness of the hand-written model to the C++ text (the code is not executed here).
* Exact arithmetic instead of IEEE doubles (see table), except in the theorems about rounding (C88 on).
* The MATAR array library (`/repo/matar` is an empty submodule): `CArray(i,j)` is row-major
  storage of exactly the allocated size; `ViewCArray` the same over borrowed storage.
* Memory is never exhausted. In particular the stack is taken to be large enough for the variable-length arrays of mesh size that
  swage puts on it (`num_corners_saved`, `hash_keys`, `h_keys`, ...). Leaks (the destructor of `LagrangeElement` writes `delete [] w, C`, which frees only `w`;
  that of `LegendreElement` frees nothing) are modelled separately (C114) and have no effect elsewhere in the model.

## 2. Plan per property
* **C01** mixed-radix encode after decode is the identity — `MixedRadix`: both loops with 64-bit wrap; induction over the radix list.
* **C02** mixed-radix decode after encode is the identity — as C01.
* **C03** partial-derivative orders survive encode/decode — `PartialDeriv`: encoder as `Option` (UB when shift count >= 32 or the int overflows); decode loop by well-founded recursion; bit-level proof.
* **C04** decoding any derivative encoding terminates with the documented orders — loop invariant on (e,p).
* **C05** coincident-vertex search — `Lagrange`: fold with 64-bit wrap; a matching count argument; negation witness for two matches.
* **C06** barycentric evaluation of a Lagrange basis function — model with generic field; equality with Mathlib `Lagrange.basis`.
* **C07** barycentric interpolation reproduces polynomials — equality with `Lagrange.interpolate`.
* **C08** derivatives of the Lagrange interpolant — loop model; orders 1 and 2 proved for all N, order >= 3 refuted by a witness (`_partial`).
* **C09** LagrangeElement basis is the nodal tensor-product basis — `LagrangeElement`: digits from C01 model + C06.
* **C10** sum-factorised evaluation equals the basis expansion — workspace passes modelled as in the code, sums reindexed by the mixed-radix bijection.
* **C11** element Jacobian, determinant and inverse are consistent — ring identities + Mathlib `Matrix.det`.
* **C12** Legendre evaluation is the orthogonal Legendre family — recursion modelled; polynomial identities by induction; orthogonality through the Legendre ODE.
* **C13** Legendre derivatives — Gegenbauer derivative identity by induction; Gamma ratio from Mathlib.
* **C14** Jacobi derivatives for general parameters — false: theta uses alpha twice; witness + partial for alpha = beta.
* **C15** LegendreElement expansion — as C10.
* **C16** equispaced point distribution — direct algebra.
* **C17** LU factorisation with pivoting — `LU`: Crout loops as in the code on functions; loop invariants.
* **C18** LU solve — invariants for forward/back substitution.
* **C19** LU inverse and determinant — from C17, C18 and `Matrix.det`.
* **C20** 3x3 matrix inverse helper — ring identity.
* **C21** physical Jacobians and determinants 2D/3D/4D — 2D and 4D proved, 3D refuted (parenthesisation) with witness.
* **C22** inverse Jacobians 2D/3D/4D — 2D and 4D proved, 3D refuted with witness.
* **C23** serendipity and linear shape functions are nodal — ring identities at all points, finite vertex tables.
* **C24** shape-function partials are the derivatives of the shape functions — `HasDerivAt` for each function; Hex20/Hex32 xi partials refuted.
* **C25** vertex-to-node maps — tables vs lattice positions; four tables refuted.
* **C26** surface dof lists — tables vs face predicate; Hex20/Hex32 refuted.
* **C27** physical_position is the isoparametric map — loops with explicit bounds; Hex32 over-read and QuadN accumulation refuted.
* **C28** arbitrary-order 1-D Lagrange interpolants and derivatives — nested loops = `Lagrange.basis` and its derivative.
* **C29** HexN / QuadN tensor-product basis — tensor product over C28.
* **C30** tabulated quadrature is accurate — tables as rationals; polynomial exactness from moments; Lobatto-12 accuracy refuted at 1e-15.
* **C31** tensor-product quadrature points — index decomposition + product of sums, orders 1 to 8; the four-dimensional Gauss rule is refuted.
* **C32** reference-element index maps are bijections — arithmetic of lexicographic indices.
* **C33** reference corner weights split node weights — sum over corners.
* **C34** reference patch numbering — numbering loop invariant.
* **C35** node-to-cell connectivity — CSR build loops, invariant over processed incidences.
* **C36** corner connectivity — as C35.
* **C37** cell-to-cell connectivity — dedup loop invariant; single-cell out-of-bounds witness.
* **C38** patch connectivity — the two hash walks for arbitrary keys (same id iff same key); keys computed over the reals: faithful on every lattice mesh (sides differ by half a spacing) and under a separation condition; collision witness refutes the general claim.
* **C39** element connectivity — as C35/C37.
* **C40** boundary patches — filter.
* **C41** boundary set tagging — call-history induction; witness for the `==` guard and for re-tagging.
* **C42** refinement merges coincident nodes exactly once — hash walk history; first-key defect witness + exact characterisation.
* **C43** refined cells: lattice structure — index arithmetic.
* **C44** refined Gauss points lie in the element — convexity of trilinear weights.
* **C45** element size bookkeeping — arithmetic.
* **C46** hexahedron volume — polynomial identity; integral of trilinear Jacobian as the independent spec; Lebesgue measure of the image for cells that are not inverted.
* **C47** cell centre computed with the hexahedron volume — stale reads modelled; the accessor recomputes, so the observable value is right; the stored value is characterised and refuted.
* **C48** Gauss-point Jacobian of affine elements — linear algebra over finite sums.
* **C49** volumes are additive over corners — finite sums.
* **C50** matrix product and matrix-vector wrappers — packed copies with explicit bounds; square correct, rectangular refuted.
* **C51** VTK vertex maps are inverse permutations — PointIndexFromIJK is a parameter assumed bijective.
* **C52** box mesh connectivity — loops over i,j,k; face counter closed form; boundary alias witness.
* **C53** mesh file vertex order round-trips — the text of the file is modelled character by character (`%10d`, `%12.5e`, `fscanf`, line skipping); integers are unbounded, the decimal rounding rule is a parameter (nearest within half a unit), a matching failure of `fscanf` is `none`; box file → `read_mesh` proved, restart refuted.
* **C54** smoothing obeys a maximum principle — scatter loops over cells, division by the number of incident cells, boundary overwrite; convex-combination invariant over cycles.
* **C55** region fills — switch with fall-through modelled literally; fold over the fill list; concrete refutation for the box fill + partial.
* **C56** sub-cell weights partition quadrature weights — exact sums over Real.sqrt literals.
* **C57** Chebyshev point distribution — sine formula = zeros of Mathlib's Chebyshev `T`.
* **C58** Chebyshev nodes of the arbitrary-order elements — monotonicity of cosine on [0, pi].
* **C59** LU pivoting bounds the multipliers — loop invariant when all row maxima are equal; 2x2 witness otherwise.
* **C60** HexN vertex and node tables — append-loop lemma for the running counter, lexicographic index arithmetic.
* **C61** QuadN physical position and corners — exact accumulation formula; affine reproduction for a cleared output, concrete witness for the stale one.
* **C62** surface/interior node lists — invariant of the classification loop; counting lemma.
* **C63** patch and cell points — invariant over the patch numbering loop (the first visitor of a face writes it), tables from C30 for strict inclusion.
* **C64** corner surfaces — row-by-row specification of the fill loops; finite sum over eight corners.
* **C65** basis/gradient tables — C29 applied at every tabulated point.
* **C66** transposition and inversion — the loops modelled with bounds, `getrf`/`getrs` as an oracle with its documented contract; Mathlib matrices for two-sidedness.
* **C67** Gauss-Jacobi rules — `dstev` as an oracle with its documented contract (orthonormal eigenvectors of the tridiagonal matrix); moments of the rule are entries of powers of the matrix; orthogonality of the Jacobi polynomials against the weight gives exactness to degree 2n-1.
* **C68** corner normals — evaluation of the assignments on an arbitrary array.
* **C69** high-order refinement — the walk and cell lemmas of C42/C43; tensor interpolation on equally spaced vertices; symmetry of the Lobatto nodes and of the basis for conformity; separation on box meshes; three counterexamples.
* **C70** Jacobian determinants at the Gauss points — loops with explicit bounds; "last writer of the node" invariant; C11 and derivatives of tensor interpolants; two refutations.
* **C71** the annulus example — counters and lexicographic indices for the mesh; interpolants with separated variables for the determinants; C72's error formula for the bound.
* **C72** accuracy of interpolation — Rolle's theorem for n+1 zeros by induction over finite sets; the classical auxiliary function; telescoping over the three directions.
* **C73** volumes of curved elements — the determinant expanded into monomials of degree below 3p in each variable, C30's exactness, change of variables for the measure; order 0 by an explicit frustum.
* **C74** the checks of the Average example — the side terms telescope over the cells to the flux of a cross product of gradients through the cube, whose exact value vanishes monomial by monomial; quadrature error from C30.
* **C75** the run of the Average example — the cycle loop as a recursion on the cycles left, with `ensight` reduced to the data of a dump; one induction with an invariant on time, dump number, list of times and dumps gives both the finished run and the overrun of `graphics_times`.
* **C76** `vtk_writer` — the numbers of the data arrays as lists; a small reader (slices by offsets, face streams) is the specification; closedness of the six faces is a finite table.
* **C77** setup of the Average example — composition of the connectivity theorems (C35, C37–C42) with the refined mesh shown to be a rectilinear grid whose last cell is the thinnest; boundary sides of a grid lie in its bounding planes; one-cell meshes refuted.
* **C78** the whole Average example — C77, C55, C54 and C75 composed for the settings of `input`.
* **C79** generator to results — C53's file model with exact printed values; the printed planes are a rectilinear grid with spacings within 1% (rounding error 5e-6 relative), so C78 applies.
* **C80** VTK file names — names as character lists, extension by last dot and ASCII lower case; files as a map from names; VTK's readers and writers are parameters; the mesh trip composes with C51, with VTK's numbering transcribed (`vtkIndex`) and proved a bijection for every order.
* **C81** VTK example — composition of C71, C51 and C80; the two elements agree on the shared face by the mirror symmetry of the Lagrange derivative at equally spaced points.
* **C82** element_selector — pointer as the class of the object it points to; composed with the nodal property C23; QuadN/HexN refuted.
* **C83** complex step, Lagrange — the evaluators are generic in the field with the vertex search as a parameter; the complex search looks at real parts (`common::abs`); every evaluator is a real polynomial evaluated at a complex number, and a Taylor expansion bounds the error of the step; at vertices refuted (the search short-cuts to the vertex value and drops the imaginary part).
* **C85** eig_sym_tri — raw storage of `eigvecs` shared with LAPACK (column-major), so rows are eigenvectors; contract of `dstev` as hypothesis, met by the spectral theorem; preservation of `subdiag` refuted.
* **C84** complex step, Legendre/Jacobi — the recurrences evaluate real polynomials at complex numbers; same expansion.
* **C86** convergence of the Average example — the difference of two fields is multiplied by a nonexpansive averaging operator; along a chain of cells to a held node every cycle gains a factor below one, so some power is a contraction; the steady field exists because `1 - A` is injective on a finite-dimensional space.
* **C87** limit of the Average example — rows of a grid survive the refinement; mirror cells cancel in the average at inner planes, so the field linear in the plane number is steady; comparison principle for the result of the program; the spacing of the Lobatto nodes refutes linearity in `x`.
* **C88** rounding errors of the Average example — `Fp/Arith`: a rounding is a monotone map with relative error `u` that fixes numbers of few bits; round-to-nearest-even with 53 bits is proved to be one. Running error bound of the accumulations; multiples of 0 and 10 are exact, so monotonicity gives the bounds; nodes of a box have 1, 2, 4 or 8 cells.
* **C89** rounding errors of the LU solver — `Fp/LUModel` repeats the model of C17–C19 with a rounding after each operation; running error bound of an inner product measured by its result, then the column-by-column invariant of C17 with error terms; a residual bound is turned into a perturbation of the matrix row by row. The counterexample is evaluated in `binary64`.
* **C90** hash keys do not overflow — `Int32`: the models of C38, C42 and C69 with every `int` conversion, product and sum on the way to the keys checked against `2^31`; simulation of the unbounded model, exact completion conditions, then cubes, plates and tiny cells evaluated in closed form.
* **C91** quadrature-point state of several meshes — `Swage/World`: a world of mesh objects, one of them the global one, operations named by the object they are called for; frame property and ownership by case analysis over the operations, histories by induction; the calls on the global object refute the rest.
* **C92** refined meshes in floating point — `Fp/RefineModel` repeats the model of C42 with a rounding after every operation and literal. Points of a common side: the zero weights drop out and the remaining sums are term by term the same. Grids: forward error bounds of Gauss points (140 u A), bin size (11 u relative) and indices; lattice planes are 1.11 bins apart, so rounding cannot merge them, and equal lattice coordinates give equal numbers by the first part; numberings of key functions with the same classes agree. The counterexample is evaluated in `binary64` (`Fp/Eval64`).
* **C93** patches in floating point — rounded hash keys of `build_patch_connectivity` (`Fp/PatchModel`), error bound against the exact keys (`PatchError`, `PatchGridFp`), exactness with two spare bits, binary64 evaluation of a turned pair (`PatchRotated`).
* **C94** interpolation in floating point — `Fp/Rel`: factors produced by `k` relative errors, closed under products, quotients and running sums; the first barycentric form has no cancellation apart from the given data, so every term keeps its own factor (`LagrangeLemmas`); the element is three nested sums (`LagrangeElement`).
* **C95** derivatives in floating point — at a vertex the divided differences use the given data, so `Fp/Rel` applies; elsewhere the computed value of the interpolant enters and its error is divided by the distance; binary64 evaluation of a two-vertex case (`LagrangeDerBad`).
* **C96** hexahedron volumes in floating point — the volume expression as a syntax tree (`Fp/Expr`): structural induction gives the error in terms of the sum of moduli, and exactness on dyadic grids; `Fp/EvalInt` rounds integers with integer operations so that the kernel evaluates the counterexample.
* **C97** Jacobians in floating point — the routines of C48 with every operation rounded (`Fp/JacModel`); dot products by induction on the vertices, determinant and cofactors as `Expr` trees, perturbation of the determinant by telescoping.
* **C98** `get_vol_jacobi` in floating point — same loop invariants as C49, with rounded dot products and sums.
* **C99** Legendre polynomials in floating point — the routines of C12/C15 with every operation rounded (`Fp/LegendreModel`); stability by an energy (Lyapunov) form of the normalised recurrence (`Fp/LegendreLemmas`), expansions by perturbation of the coefficients.
* **C100** their derivatives — the same energy argument for the Jacobi recurrence with parameters (k, k) normalised by its values at one (`Fp/JacobiLemmas`).
* **C101** box meshes through arithmetic and file — the generator of C52 with every operation rounded, the character-level writer and reader of C53, decimal numbers rounded to doubles on input (`Fp/BoxModel`); order by monotonicity of rounding and of `%12.5e` (`MeshFile/Mono`), distances by error bounds, collapse by counting decimal grid points.
* **C102** (`MeshFile/CutModel`, `CutLemmas`, `CutRead`, `CutTheorems`): `read_mesh` with unchecked `fscanf`/`fgetc` on any prefix of the writer's text. Every scan of a cut token leaves a prefix of the following text (empty when cut); loop invariants carry `text.take (k - consumed)`. The header loop has fuel: it never ends on fewer than eight newlines. The claim fails: exact description of the result for every cut, and a wrong mesh from a file that lacks two characters.
* **C103** (`Legendre/RecModel`, `RecTheorems`): `legendre::eval`, `jacobi::eval`, `eval_der`, `eval_approx` with a signed order, frames and a call counter; `run_none` by induction on the frames, `run_some` by strong induction on the order (Fibonacci recurrence); the growth by induction.
* **C104** (`Fp/ShapeModel`, `ShapeExpr` (both generated by `tools/gen_fpshape.py`), `ShapeLemmas`, `ShapeTheorems`): every routine as a syntax tree; the tree evaluated with roundings is the model by `rfl`, evaluated exactly it is the model of C23-C27 by `rfl`. Errors from the tree bound of `Fp/Expr` with cost and magnitude of every tree checked by the kernel; linear classes by products of relative errors; vertices by a checker for exactness over the rationals that is proved sound.
* **C105** (`Ensight/Model`, `Spec`, `DiskLemmas`, `Session`, `CaseLemmas`, `FrameLemmas`, `Theorems`, `BoxTheorems`): the writers as lists of file operations on a disk, a crash relation (any prefix of the operations, any prefix of the open file), a reader of case files. Invariant over the dumps: the first k are whole and the case file is a prefix of the k-th; a proper prefix loses a line and is rejected. Negations: stale case file, window while the case file is rewritten.
* **C106** (`VtuFile/Spec`, `Model`, `Lemmas`, `Read`, `File`, `Theorems`): `vtk_writer` character by character, a reader of `.vtu` files that finds the arrays by name and splits at blanks. The text is shown to be a list of lines, each array is found behind lines that cannot contain its name, words are read back as numbers, and the integers are those of C76. The last line holds the only closing tag, so every cut is rejected; crash relation of C105. Negations: nodes closer than a millionth, cell numbers beyond 2^24, overwriting.
* **C107** (`Fp/HexNModel`, `HexNLemmas`, `HexNTheorems`): the functions of `HexN/Model` with a rounding after each operation. Products and quotients of rounded differences give `Rel` with `4 n + 1` errors; sums of such products are kept as sums in which every term has its own factor (`Acc`). At a vertex the numerator has a zero factor or is literally the denominator. Negations by evaluating `binary64` at `2^-53` and `2^-60`.
* **C108** `Verif/Ieee/*`: an arithmetic `Ieee` with relative error for normal numbers, absolute error below the smallest normal number, overflow = `none`; `ieee64` is double precision (round to nearest even, emin -1074, top 2^1024). The Average routines are modelled with `A.rnd` after each operation; maximum principle through representable multiples of the bounds, forward error by induction with the extra term `2 len delta`.
* **C109** `Verif/Ieee/Expr`, `Ieee/HexModel`, `Ieee/HexTheorems`: expression trees evaluated with overflow and underflow; `evalI_err` bounds the error by `(1-u)^-cost - 1` times the sum of the moduli of the terms with one smallest normal number per operation, and `fits_of` excludes overflow. The model of `get_vol_hex` runs on `FNum` (finite or `none`).
* **C110** `tools/gen_ieeeshape.py` -> `Verif/Ieee/ShapeModel`, `Ieee/ShapeLemmas`, `Ieee/ShapeTheorems`: the shape routines run on `FNum` (finite or `none`); each value is proved equal to the `evalI` of the expression tree of C58's model, whose error follows from `evalI_err`; `sum_err` handles the accumulation loops.
* **C111** `Verif/Fp/ComplexModel`, `Fp/ComplexLemmas`, `Fp/ComplexTheorems`: the complex recurrence on pairs; `drive` propagates disturbances through the stable quadratic form of C99 twice, first for the real part, then for the imaginary part divided by the step, whose exact recurrence is that of the derivative.
* **C112** `Verif/Geometry/BoundaryFlux`, `BoundaryTheorems`, `BoundaryRefine`: specification: the integral of the position against the normal of the bilinear patch. `volume_flux` is the divergence theorem for one trilinear cell; the flux of a side changes sign when its nodes are listed the other way round, so in the sum over the sides of a patch (C38) only patches with one side are left, which are the boundary patches (C40). Grids by C41, refined grids by the grid of `refined_grid` (C42), where the volumes of the refined cells telescope. `Fp/HexTotal` adds the rounding errors of C96.
* **C113** (`Verif/Concurrent`): the evaluation methods again, as programs (`Prog`) of single reads and writes of `ijk` and `C`; a schedule is any list of thread numbers. `exec_alone`: threads that access disjoint entries behave in every schedule as alone; the values of a method alone (whatever the arrays contain) are the basis functions and expansions of C09. Threads sharing an object are refuted by schedules that exist on every element.
* **C114** (`Verif/Heap`): addresses and sizes of the blocks of `new[]` and `delete[]`; invariant of all histories without copies; the leaks are counted exactly.
* **C115** (`Verif/Geometry/CurvedSurface.lean`): the integral of the Jacobian determinant of a polynomial map is a trilinear form in the coefficients (`triple`); a product of one-dimensional polynomials that vanish at both ends is in its kernel (the rows of a 3 x 3 determinant become dependent, by `k ∫ t^(k-1) = 1 - (-1)^k`), and two interpolants with the same surface values differ by a combination of such products. Combined with C73.
* **C116** (`Verif/Geometry/CurvedMesh.lean`): the trilinear form of C115 splits into the difference of upper and lower side in each direction (`imageVolume_sides`), each a form in the positions of the nodes of that side only (`restr_interp`); the forms of glued sides cancel (`sum_glued`). The specification is `Glued` and `OuterNode`. `CurvedBoxes.lean`: the meshes `refine_high_order_mesh` makes of box meshes are `Glued` (C116_boxes_partial, with the restrictions of C69_lattice_partial).
* **C117** (`Verif/Geometry/CurvedTurned.lean`): the form of a side changes sign under a swap or a mirror image of its lattice (`square_orient`; mirror images use the symmetry of the tabulated Lobatto points and that odd moments vanish), so two sides glued together cancel; the sum over all sides is zero by the involution of the gluing. The specification is `GluedAny` and `OuterNodeAny`; `Glued.any` shows that C116 is a special case.
* **C118** (`Verif/Geometry/CurvedOuter.lean`): by C117 the total volume is the sum of the forms of the outer sides (`total_sides`); the forms of corresponding outer sides are equal. The specification is `SameOuter`.
* **C119** (`Verif/Geometry/CurvedSkin.lean`): the form of an outer side is computed from the coefficients of the map restricted to it (`side_co`), which the values on the side determine (`biv_unique`); padding to the higher order (`sideForm_pad`) and the eight symmetries acting on coefficients (`sideForm_act`) give equal forms. The specification is `SameSkin`.

No property of the list is considered inexpressible in a model.

## 3. What is modelled and what is not

`tools/coverage.py` lists, for each file of `/repo`, the lines cited by the model.

| file | modelled | not modelled |
|---|---|---|
| `common/common.cpp`, `common/common.h` | all functions | the `typedef`s |
| `common/matar_blas_lapack_interface.cpp` | all functions (C50, C66, C85) | the internals of LAPACK (`getrf`, `getrs`, `dstev`: contracts) |
| `common/error.h`, `common/utilities.h`, `common/c_blas_lapack_interface.h` | – | error text and macros; foreign declarations |
| `elements/*_polynomials.cpp`, `*_element.cpp`, `point_distributions.cpp`, `gauss_jacobi_quadrature.cpp` | all functions, generic in the number type | explicit template instantiations |
| `elements/elements.cpp` | quadrature tables, `ref_element`, all fixed-order elements, QuadN, HexN, `element_selector` | accessors that return a field, the `new` of the tables of the arbitrary-order elements |
| `geometry/geometry.cpp` | all functions | – |
| `slam/slam.cpp` | all functions | – |
| `swage/swage.cpp` | set-up, connectivity of nodes, corners, patches, elements, boundary sets, `refine_mesh`, geometry, quadrature-point state | accessors that return a field or an array entry (they appear inlined) |
| `swage/refine_high_order_mesh.cpp`, `swage/evaluate_jacobian_determinants.cpp` | all | console output |
| `io/vtk_io.cpp` | all | VTK itself (readers, writers and numbering are parameters) |
| `examples/average/*` | `main` (cycle loop, dumps), `read_mesh`, `generate_bcs`, state set-up, smoothing, `vtk_writer`'s arrays, `ensight`'s numbers, `input` | console text, directory creation, XML tags, `setup` helpers that only print |
| `examples/vtk/plotting_jacobian_determinants.cpp` | all | console output |
| `mesh_tools/box_mesh_creator/meshbox.cpp` | mesh, its file (characters) | the auxiliary Ensight `.var`/`.case` files, directory creation |
| `matar/` | contract only (empty submodule) | – |
| `tests/`, build files | – | all |

Across all files: heap exhaustion, stack exhaustion and the text written to the console are outside the model. Concurrency (the code is sequential, its users need not be) is modelled for the element classes (C113), single array accesses of the threads being interleaved in any order; since no two threads are ever about to access the same entry, weaker memory models give nothing else. Memory leaks are modelled for the element classes, the state of the Average example and the BLAS/LAPACK and VTK routines (C114), not for MATAR arrays.
