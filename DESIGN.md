# Formal model of selected parts of diskpp

Source: wareHHOuse/diskpp, read as text from /repo. Paths below are relative to
`libdiskpp/include/diskpp/` unless they start with `libdiskpp/`.

## 1. Layout of the Lean project

* `lean/Verif/Model/*.lean`: executable model, one file per code area. Every definition cites file and lines.
* `lean/Verif/Spec/*.lean`: small specification predicates. They do not use model functions; a few use the types of the
  model (records, lists of calls).
* `lean/Verif/Lemmas/*.lean`: helper lemmas about the model.
* `lean/Verif/Props/*.lean`: the property theorems listed in `MANIFEST.json`, each with a non-vacuity `example`.

## 2. Modelling conventions

* `std::vector` is `List` (or `Array`-free `List` with `getElem?`), `std::optional` is `Option`,
  a C++ exception is `Outcome.throws` (in older files `Except.error`), undefined behaviour (out-of-range
  access, division by zero, failed `assert`) is the distinct outcome `Outcome.ub` and never a default value.
* `size_t` is `Nat` where the code only counts or indexes; wrap-around is modelled
  (`BitVec 32`, arithmetic modulo 2^32) where it is part of the property (C01, C08).
* Floating point is replaced by exact arithmetic in an arbitrary field, ordered field, or ℝ
  (when `sqrt` is used). Rounding is not modelled anywhere. Tabulated literals are modelled as the
  exact decimal fraction written in the source.
* `std::sort`, `std::lower_bound`, `std::unique` are the standard library. `lower_bound` is modelled
  by the libstdc++ halving loop (so its behaviour on unsorted input is visible), `sort` by a list
  sorting function with the properties the standard guarantees, `unique`+`erase` by removing adjacent
  equal elements.
* Eigen is modelled by functions / Mathlib matrices over a field. `LDLT/LU .solve` is
  multiplication by the inverse, with invertibility as an explicit hypothesis.

## 3. Trusted base

* The Lean 4 kernel, and the axioms `propext`, `Classical.choice`, `Quot.sound` (checked by
  `#print axioms`; no theorem uses others). No `sorry`, `native_decide`, `bv_decide`, own axioms.
* The hand translation from C++ to Lean. Nothing is extracted automatically. Each definition has a
  citation so that a reader can compare.
* Contracts assumed of Eigen: `LDLT`/`LLT` solve symmetric non-singular systems (`Hho.Solver`, `Condensation.LDLT`),
  `PartialPivLU` solves non-singular systems (`Vem.LU`), `mumps_lu` solves non-singular systems
  (`HhoSolver.LU`), `LDLT` accepts symmetric positive definite matrices (`Spec.HhoSolver.AcceptsSPD`); sparse `setFromTriplets` adds entries with equal positions.
  Each contract is shown to be satisfiable by an exact solver.
* The functions of the GMSH API return what their documentation says: nodes, elements by type and sides of the entities of a mesh
  are arguments of the model (C157, C158, C159).
* The iteration for Bingham flow takes the assembled Stokes system as a contract (`Bingham.Problem.Solves`: its solutions balance the
  local right-hand sides and differ by test velocities) and the operators of a cell by their properties (`Bingham.Lowest`). Both are
  shown to be satisfiable; C128 and C129 say what the assembler does.
* The Silo library is a function of what is written to it (C165, C166).
* Not modelled: file I/O beyond token streams, Lua bindings, output (vtk; silo and gmsh except C164–C166), MPI, threads,
  floating-point rounding, Eigen/MUMPS/PARDISO internals, memory management, performance.

## 4. Properties

For each property: what is modelled, and how it is proved. "(code violates)" marks properties for which
the code as written does not satisfy the natural statement. In that case the negation is proved with a
concrete witness and a `_partial` theorem states what does hold.

| id | model | proof |
|----|-------|-------|
| C01 | `identifier<T,uint32_t>` over `BitVec 32` with the two masks | bit-level lemma on masks; negation ≥ 2^31 (code violates for large values) |
| C02 | generic and 32-bit identifier, invalid = default constructed | generic: `invalid() == id(0)` (code violates); 32-bit: proved |
| C03 | `lower_bound` halving loop, `find_element_id`, `lookup`, `operator[]` | loop invariant by strong induction on length; sortedness ⇒ iff |
| C04 | `offset` without equality test | present ⇒ exact; absent ⇒ insertion index, negation (code violates) |
| C05 | sort + unique + erase | sortedness and membership, canonical form by uniqueness of sorted lists |
| C06 | flat vector with size prefixes | induction over the list of polygons |
| C07 | recursion on n | strong induction, any monoid |
| C08 | `fact`/`binomial` modulo 2^32 | finite cases n ≤ 12 exact; negations for n < k, n = 13, and division by zero (code violates) |
| C09 | the two product loops and integer division | product identity with `Nat.ascFactorial`/`choose` |
| C10 | the nested loops as list comprehensions | membership ⇔ exponent sum, `Nodup`, length = C(k+d,d) |
| C11 | value and gradient loops over ℝ | `HasDerivAt` along every direction |
| C12 | the eleven coefficient lists | recurrence by `ring`, derivative by polynomial identity; negation for degrees 8 and 10 (code violates) |
| C13 | rational class over `Int` with Euclid's gcd with truncated remainder | value homomorphism; positivity preserved by some operations; negations for `*=`, `/=` and `<` (code violates) |
| C14 | flag vector + skipping iterator | induction over the flag vector |
| C15 | boundary descriptors | membership and sortedness of the id list |
| C16 | owner map built face by face | invariant over insertion sequence |
| C17, C18, C19 | per-face tuple vector plus counters, operations as state transitions | induction on histories; double-counting and wrong accessor negations (code violates C18, C19) |
| C20 | enum + switch | case analysis |
| C21 | compress/expand table loops | induction over the flag vector; witness for the empty vector of the basic assembler |
| C22 | triplet accumulation, Dirichlet lifting | sums over triplets, algebra |
| C23 | slices of the solution vector | offsets from C21 |
| C24 | block matrices; `LDLT` as a contract (lower triangle, success flag, solves) | block elimination; witness for a non-symmetric cell block |
| C25 | DG triplets | arithmetic of block ranges |
| C26 | tagged index | case analysis |
| C27, C28 | `hexmesh_work` with fuel and `size_t` wrap-around, sorting, owner map (`Model/HexMesh`) | induction on the level gives the tiles in visiting order; sides of neighbouring tiles compared by a kernel-checked table of ten pieces and nine offsets; level 62 and above: the recursion never ends |
| C29 | the two loops with checked `at`, zero elements = division by zero | loop invariants on list updates; also what happens for a reversed interval |
| C30 | generated lists and face enumerators (`Model/SingleMesh`) | lookups computed for the fixed elements; negations for tetra/quadrilateral/hexahedron (code violates); polygon for all sizes |
| C31 | `populate_mesh` of the FVCA6 and poly loaders: sorting, conversion table, relinking, boundary groups (`Model/Renumber`) | permutation of the numbers, for every result allowed for `std::sort` |
| C32 | `fvca6_read` on tokens (`Model/Fvca6`), round trip with a writer in `Spec/Fvca6` | round trip for all sections but edges; negation for the edge section (code violates) |
| C33 | bytes, read pointer (unset, null, offset), `memchr` | induction over lines; negations for the unterminated last line, `end` and reading after an exception (code violates) |
| C34 | comparison chain over an ordered field; renumbering loop over C16's connectivity | exclusivity of the chain for unit normals; invariant over the visited pairs |
| C35 | loop with the actual index expression | the loop is shown to accept every point (code violates) |
| C36 | the four votes over an ordered field | the tests are the volumes with one vertex replaced, i.e. barycentric coordinates times the volume; sign analysis |
| C37 | index loop of the fan triangulation, Kahan areas | sides as a cyclic zip; telescoping sums |
| C38 | sorted side lengths over ℝ, in the plane and in space | Heron identity: the argument of the root is a square |
| C39 | determinant formulas over a field; division 0/0 = `none` for the signed floating-point versions | `ring`; the rational triangle lacks the factor 1/2 (code violates) |
| C40 | loop with the OR-ed flags, with and without asserts | invariant for componentwise comparable points; negations in 2D and with asserts (code violates) |
| C42 | rule selection, permutations, the 20 tables as scaled integers, asserts on or off | moments in barycentric coordinates by kernel evaluation with symmetry; Dirichlet's formula by induction; negation at the sentinel degree 21 (code violates) |
| C43 | list of steps over an ordered field; every arithmetic result passes through a rounding parameter; pop and front of an empty list are undefined | invariant over histories in exact arithmetic; doubles as 53-bit significands with rounding to nearest; negation for 11 steps to time 100 (code violates) |
| C44 | assignment lists over ℝ | round trip per size; negation for size 6 (code violates) |
| C45 | DIM²×DIM² matrices as functions, loops as folds over the index tuples, `coeff` with integer indices and exception | reading after writing; folds of writes at distinct places; finite sums; kernel evaluation of the identity tables |
| C46 | loop writing both entries, over ℝ | invariant: symmetric, and every visited entry has one of two values |
| C47, C60 | iteration over real vectors, division by zero = not finite | residual invariant; orthogonality by induction on the iteration count; at most n orthogonal vectors; witnesses for the iteration limit and breakdown (code violates the last clause of C47) |
| C48 | arrays of degree records | history induction |
| C49 | index arrays, restored flag | case analysis over histories |
| C50 | level test, nested lookups, barycentric test | chain of containing triangles; negation at level = number of meshes for every hierarchy (code violates) |
| C51 | `refine` with its edge vector, binary search and sort on index triples; a missing edge throws | conformity (each edge owned by one or two triangles according to its boundary flag) is preserved; counts, areas, midpoints and labels |
| C52 | prefix comparison | negation (code violates) |
| C53 | accumulation loops over quadrature points, basis values as matrices | quadratic form = quadrature of the square; sums of squares |
| C54 | list writes of both blocks, `size_t` wrap-around in the 2D start index | lengths from C09, `drop` = filter by degree; negation in 3D at degree 1 (code violates) |
| C55 | table loop with its unconditional second write | derivative by induction along the loop; negations for degree 0 and scale 1 (code violates) |
| C56 | same tables as C12 | coefficient lists, exact moments, rational Gram table by kernel evaluation |
| C59 | block loops of the basic assembler | same residual argument as C22 |
| C57, C58 | same object as C17 | corollaries of the history theorem; witnesses for shared ids and NO_CONTACT |
| C61 | loop over the faces in any order with `normal` | sign of `normal` by the side of the barycenter; negation for an L-shaped hexagon (code violates) |
| C62 | the shoelace-type sums | moment identity for every reference point; positivity by convexity |
| C63 | turning test at every vertex, always true for triangles | per-vertex test compared with all sides; negations for a pentagram and a clockwise triangle (code violates) |
| C64 | `normal` with the mean of the vertices (simplices) or the polygon barycenter | side of the opposite vertex from the side of the barycenter |
| C65 | the pair loops and box loops over points `Fin d → K` | fold invariants for running maxima, completeness of the pairs |
| C66 | passage matrix from the box lengths, any axes | affine in the point; range of the coordinates along the axes |
| C41 | the 40 tables as scaled integers, the four drivers with the table as an argument | moments by kernel evaluation, perturbation by rounding, linearity, affine change of variables |
| C67 | `integrate` of 2D generic cells over ℝ with tables as arguments; the triangulation of non-convex cells and `triquad` are arbitrary functions | integrals of polynomials over polygons by Green's formula (checked against iterated integrals on rectangles and the shoelace area); change of variables for bilinear maps through the boundary; edges cancel in the fan; negation for odd degrees on a trapezoid (code violates) |
| C68 | the 30 triangle tables as scaled integers, space version | moments by kernel evaluation, `∫ u^i v^j = i! j! / (i+j+2)!`, linearity |
| C69 | the assignment tables of `convertTensorFromMgis` transcribed by a script | symbolic execution of the tables by kernel evaluation; linear combinations with √2² = 2; negations for size 36 (code violates) |
| C70 | the assignment table of the Mandel matrix, block copies | same |
| C71 | `build_hierarchy` with its own edge list, `remove_if` without `erase`, `sort`/`unique`, uninitialised identifiers as a parameter | the leftovers of `remove_if` are already in the kept part because a conforming mesh has at most three edges per triangle; comparison with C51's refinement level by level; `Spec/Nested` states the four parts by coordinates |
| C72 | C50's search on the hierarchy built by C71's model | a point of a triangle lies in one of its four parts (case split on barycentric coordinates); degenerate triangles excluded |
| C73 | lengths of the containers after each generator | arithmetic; negations for hierarchies and single elements (code violates) |
| C74 | keyword loop of `poly2d_read`/`poly3d_read` with fuel (`Model/PolyFile`); a failed stream is an empty token list | round trip by induction on the sections; negation for every truncated file: endless loop or uninitialised variables (code violates) |
| C75 | as C31 and C74 | uniqueness of the sorted order for distinct keys; negations for nodes and vertices of faces (code violates) |
| C76 | as C27 | a point inside a polygon is in the hull of its vertices (fan argument); separating sides from the table of pieces; case split on the local coordinates for the covering |
| C77 | `make_level`: binary searches in the point and edge containers, sorting of edges and surfaces, boundary marking (`Model/HexMesher`) | positions are monotone in the lattice order; every search finds its argument; counting from C28 |
| C78 | `simple_mesher<tetrahedral_mesh>`: constructor, `refine` with both binary searches and all asserts, sort and unique of faces by an arbitrary sort (`Model/TetRefine`) | the parts of a tetrahedron are the image of one fixed template under a monotone renumbering; faces of parts are parts of faces or lie inside; double counting of faces |
| C79 | midpoints of `refine` | determinants of the eight parts of the template |
| C80 | same | frames of two successive parts are mapped by a matrix with characteristic polynomial λ³−λ+1 (up to sign), the recurrence w(k+3)=w(k+1)+w(k) doubles every three steps; upper bound by the diagonal being the mean of two opposite edges (code violates) |
| C81 | same | barycentric coordinates: the part is decided by comparing λi, λ0+λ1 and λ0+λ3 with 1/2; Kuhn's triangulation for the cube |
| C82 | `make_scalar_hho_laplacian` (tensor, face projection, degrees per face) on a cell given by bases, quadratures and normals (`Model/HhoLocal`); factorisations as an assumed solver | `Spec/HhoLocal` states polynomial spaces, exactness and Green's formula; block writes as bilinear forms; uniqueness of the solve; instance on the segment |
| C83 | `project_function` | normal equations of the projections; quadrature exactness |
| C84 | the HDG, DG and HHO stabilizations, both overloads of the latter | each block matrix is the form of the coefficients of a projection (uniqueness of mass solves); sums over faces |
| C85 | same | for an interpolate the cell part of the difference is the constant missing in the reconstruction, so all face moments vanish |
| C86 | the flag as a parameter of the model, unused where the code does not use it | equality of the two overloads for `hF = false` by uniqueness of projections; a segment with a wide face gives 1 instead of 1/2 (code violates) |
| C87 | constructors and setters of `hho_degree_info`, `CellDegreeInfo`, `MeshDegreeInfo` (`Model/HhoDegrees`) | case split on the conditions; exact description of the accepted invalid requests (code violates) |
| C88 | the triple loops of `utils_hho.hpp` with asserts and bounds | entries by induction on the loops; sums over blocks |
| C89 | `make_vector_hho_laplacian` with the conversion of degrees | sizes are binomial coefficients, strictly increasing in the degree; negation for every other degree (code violates) |
| C90 | `Model/Mech`: conversions as matrix functions over the reals, determinant and inverse exact | matrix algebra; `Spec/Mech` in index notation; a 2x2 witness and an exact description for the linearized strain (code violates) |
| C91 | `MaterialData` setters and getters, `checkRpCurve` with an own sort | field arithmetic; sorting lemmas |
| C92 | the tables of `maths_jacobian_derivate.hpp` as lists of assignments; `NormFroFirstDerivate` | derivatives along arbitrary differentiable paths; expansion of all entries; radial path for the norm (code violates) |
| C93 | `law_qp_bones`, elastic laws (`Model/Plastic`) | `IsStressOf`, `IsTangentOn` of `Spec/Mech` |
| C94 | state of a quadrature point, reachable states, `compute_whole3D` with all throws | `Spec/Plastic` states the Euler step without the return mapping; radial return solves it; uniqueness from coaxiality and monotonicity |
| C95 | same | derivative of the radial return along paths; the index of the segment of the curve is locally constant |
| C96 | both index searches with wrap-around and bounds | the interpolant on a segment; residual strictly increasing; one-point witness (code violates) |
| C97 | `HenckyMises_qp` | energy and Cauchy-Schwarz in 2D; in 3D mixed derivatives of a potential would differ; derivative along a shear path (code violates) |
| C98 | `Neohookean_qp` | derivatives of determinant and inverse along paths; chain rule per volumetric type; witness for `compute_energy` of type 4 (code violates) |
| C99 | `Cavitation_qp` | as C98 with a fractional power; explicit stress of the undeformed state (code violates) |
| C100 | `compute_coefficient` and its cases; tolerances are parameters | divided differences as iterated `dslope`; cases of coinciding eigenvalues; witness 1, 4, 4 (code violates) |
| C101 | `LogarithmicStrain_qp::compute_whole3D`; the eigensolver is a parameter with the documented properties | exact difference formula for matrix functions through two eigendecompositions gives the derivative of the strain for arbitrary eigenvectors; `exp(2E)` by conjugation; reflections for isotropic laws; witness with stretches 1, 2, 2 (code violates) |
| C102 | tangent of `compute_whole3D` and `compute_whole` | second derivative of matrix functions by an ultrafilter argument; contraction of the code's tensors in the eigenbasis; witness with linear elasticity (code violates) |
| C103 | `eval_basis`, `eval_basis_grad` of `cfem.hpp` (`Model/Cfem`); division by zero is `none` | barycentric coordinates are unique; difference quotients |
| C104 | `mass_matrix`, `stiffness_matrix`, `make_rhs` | `Spec/Cfem` integrates over the triangle as a set; reduction to the reference triangle with the lemmas of the quadratures |
| C105 | `readParameters` on a list of tokens with a stream that may fail; rounds of the loop are counted (`Model/NewtonParams`) | every written file is read back by induction; a broken stream keeps the last keyword, so no number of rounds suffices (code violates) |
| C106 | setters, getters, constructor of `NewtonSolver`, choice of the stabilization | case analysis on the corrected degrees; witnesses (code violates) |
| C107 | doubles are finite, infinite or NaN with exact finite arithmetic; the iteration object is a state with arbitrary assemble, solve, postprocess (`Model/Newton`) | induction over the iterations; `std::max` with NaN (code violates) |
| C108 | one unknown of one cell, all Newton increments of a step | comparison with Newmark's formulas of `Spec/Newton` (code violates) |
| C109 | the loop over `Model/TimeSteps` with an arbitrary Newton step that keeps the solution when it fails (C107) | invariant with the budget of attempts; `sublevel = -1` as `size_t` never stops (code violates) |
| C110 | matrix bases, the triangular loops on either branch, the mirrored half, reconstruction, load, stabilization and inertia; behavior and reconstruction arbitrary | entries of the loops as sums of writes, then bilinearity; derivative along every direction |
| C111 | one cell's quadrature points by weight and norms; the manager by its operations | bounds of the clamp, induction on operations (code violates) |
| C112 | `local_operator` with its block bounds, `local_reduction`, quadrature degrees; cells as in C05 | sums over faces, projections of C05; segment with midpoint rule as witness (code violates) |
| C113 | both stabilizations; projections by linear systems | as C06/C07; segment of any diameter as witness (code violates) |
| C114 | incidence matrices, normals of volumes and surfaces, `dual_edge_vectors(surf)` by identifiers (`Model/Dga`) | polynomial identities; triple products are signed volumes (code violates) |
| C115 | primal and dual vectors of a tetrahedron by its four points | dual areas as combinations of primal areas, then identities |
| C116 | both element matrices entry by entry; local matrices of the two applications | the quadratic form is a sum over the four points of `w·T w` with `w` the local field; consistency from constancy of `w`; witness on the reference tetrahedron (code violates) |
| C117 | `make_vector_hho_gradrec` with and without material tensor, vector basis as interleaved copies of the scalar one (`Model/HhoVector`) | solver and mass matrix as in C82; integration by parts as hypothesis `Parts` on the pair of bases, instantiated on the unit square (`Lemmas/HhoSquare`); segment with unknowns at one end as witness (code violates) |
| C118 | `make_hho_divergence_reconstruction` | same; the trace identity by uniqueness of the solution |
| C119 | `make_matrix_hho_symmetric_gradrec` with the partial mass matrix and its copies | the skipped entries are zero or equal by the Frobenius products of the six basis tensors; same scheme |
| C120 | `curl_reconstruction_pk`: mass matrix, right-hand side with tangential face functions | same scheme as C117 with `t × n` and the vector Green formula; (code violates) the mass matrix is singular when the rule of degree `2 * celdeg + 2` has fewer points than functions: witness with a tensor Radau rule |
| C121 | `curl_reconstruction` 2D/3D, `FullPivLU` as a solver of all solvable systems | solvability from symmetry of the matrix and the kernel being curl-free; 2D entrywise equal to the scalar Laplacian |
| C122 | `curl_hdg_stabilization` 2D/3D, `make_vector_mass_oper` | face terms as bilinear forms of the projected jumps |
| C123 | `project_tangent`, `maxwell_prj` | frames are orthonormal; (code violates) `maxwell_prj` integrates face functions over the cell |
| C124 | constructors and local numbering of `assembler_mechanics`, `vector_primal_hho_assembler`, `vector_mechanics_hho_assembler` | the `ind_sol` loops count free components (`Nat.count` with period `dim`); the tables are prefix sums; (code violates) contact type `SIGNORINI`: witness with two faces |
| C125 | `assemble`, `assemble_nl`, `assemble_nonlinear`, `finalize` | zeroed columns and entries leave exactly the prescribed coefficients; induction over cells; (code violates) with contact type `SIGNORINI` |
| C126 | `take_local_data`, `take_local_solution_nonlinear`, `expand_solution*` | same counting for the reading loops; combined with C125 |
| C127 | `impose_neumann_boundary_conditions` of the three classes | (code violates) witnesses: `DX` (wrong row, out of range), `DY` in 3D, overwritten rows in `assembler_mechanics`; proved on the complement |
| C128 | `stokes_assembler`, `stokes_assembler_alg` (`assembler_hho.hpp:531-1250`) | (code violates) witnesses: one `DX` face (assertion), one `CLAMPED` face; numbering by the table of C124 with cells, faces, pressures, multiplier; residual by the counting lemmas of C125 on the saddle point matrix |
| C129 | `take_velocity`, `take_pressure` | (code violates) witness: g = (x², 0), constants on [0, 1], one-point rule in `assemble`, exact in `take_velocity`; rows of C128 at pressures and multiplier |
| C130 | `scalar_primal_hho_assembler`, Neumann and Robin conditions of `diffusion_condensed_assembler` | (code violates) witness: one boundary set twice; `Contributes` (pushed triplets and pairs have a given residual) for cells, Neumann and Robin faces; counters from the histories of C17/C18 |
| C131 | `take_local_solution`, `expand_solution` | as C126; equivalence through surjectivity of the numbering |
| C132 | `Behavior` constructors, `select_law`, `numberOfQP`, `LawTypeBones` (code violates) | case analysis; sums modulo 2^64 below 2^31; invariants of the store under calls |
| C133 | `compute_whole`, `update` of all laws except MFRONT as state machines per point | `Memoryless` for each law by unfolding; induction over the calls relating the actual and the direct run |
| C134 | `compute_stress3D` of the points (code violates) | by unfolding; witness diag(1, 0) for HENCKY_MISES in 2D |
| C135 | `NewtonStep::compute` and the time loop with an abstract problem (code violates) | induction over iterations and time steps with states that agree on the committed values |
| C136 | `netgen_mesh_loader<T,2>` on lists of tokens, `load_mesh` (`Model/MeshFile`) (code violates) | the text of a mesh is read back by induction; sorted containers collect the subsets of corners; witness with two triangles |
| C137 | `netgen_mesh_loader<T,3>`; `std::sort` is any sorting function | as C136; internal marks from C16 applied to the sorted tetrahedra |
| C138 | all four loaders on wrong files; past the end the zero bytes of the page are read (code violates) | unfolding; general families of wrong files and one with corner number 0 |
| C139 | `cartesian_mesh_loader<T,2/3>`, `faces` of `geometry_hexahedral.hpp` (code violates) | edges and sides by bits of the corner index; flags with all numbers zero |
| C140 | `simple_mesher<cartesian_mesh<T,2>>`: constructor and `refine` (`Model/QuadRefine`); `subdomain_info` left out | closed form of the refined mesh; owners of halves and inner edges counted; children of a square are its quarters turned by multiples of a right angle; induction on the level |
| C141 | `measure`, `integrate` of Cartesian elements (`Model/CartMeasure`) (code violates) | C140; tensor rule on a square by the lemmas of C67; the assertion of the 3D cell fails by its number of points |
| C142 | `faces_ccw` and `dof_mapper` of the virtual element method (`Model/VemDofs`) (code violates) | loops in closed form; position of a number inside a face by division; two adjacent triangles as witness |
| C143 | `matrix_G`, `matrix_BF`, `matrix_BT`, `matrix_B`, `matrix_D`, `projector_nabla` (`Model/Vem`) on the monomial basis of C10; `lu().solve` solves nonsingular systems; exact integrals are linear forms with Green's formula for monomials as hypothesis (code violates) | index of a monomial by triangular numbers, loops of `matrix_BT` as Laplacian coefficients, closed polygon of Lobatto nodes; Laplacians by Fréchet derivatives over the reals; unit square with a hanging node |
| C144 | `local_stiffness_matrix`, `compute_local` (code violates) | the form as integral of projected gradients plus a sum of squares; C143 |
| C145 | `projector_zero` with `proj_degree = degree - 1`, `local_rhs` (code violates) | rows of the mass system; C143; triangle (-3,0), (3,0), (0,4) |
| C146 | Dirichlet marks, `compress_map`, condensation and assembly of `diffusion_vem.cpp` (`Model/VemSystem`); the local systems are given, `c146_local` shows those of C144 qualify (code violates) | loops by induction; triplets as a bilinear form; Schur complement as elimination of inner rows (C24); energy argument along `Reached` |
| C147 | `comp_next`, `gm_rule_set`, `gm_rule_size`, `i4_choose` and the two wrappers `grundmann_moeller` (`Model/GrundMoeller`); `int` overflow and writes past the end are undefined | the loop of `comp_next` as a recursion on compositions; moments by the generating function of odd powers: the alternating sum over all `i` is a factorial, the second half of the sum mirrors the first; lower degrees by multiplication with the sum of barycentric coordinates; pull-back of polynomials by affine maps, Beta integrals |
| C148 | `split_in_raw_triangles`, `split_in_raw_tetrahedra`, `measure` and `integrate` of generic 3D cells (`Model/Polyhedron`); a cell is its points and the points of its faces (code violates) | signed volume of a closed surface is independent of the apex (edges cancel); fans of flat faces have the same volume from any point of the plane; convexity passes to means of vertices; chevron prism by computation |
| C149 | `tetrahedron_arbq`, `tetrahedron_arbq_size`, `arbq` (`Model/Arbq`, tables of `Model/ArbqTables` copied from the source by a script); `exit` is an exception, narrowing to `int` wraps | moments of the literals checked in the kernel on integers (coordinates in units of 10⁻²⁰); error of the stored numbers propagated through the affine map and the normalisation of weights |
| C150 | `obstacle_assembler`, `obstacle_assembler_nitsche` (`Model/Obstacle`); local systems and projected boundary values are given (code violates for cell degree ≥ 1) | pairing of the residual with weights of the rows equals the weak form of the expanded states; compress and expand tables are inverse |
| C151 | active set loops of `obstacle_solver_strong`, `obstacle_solver_nitsche` (`Model/Obstacle`); the direct solver is a parameter (code violates for positive obstacles) | sign cases of the active set; contact forces of two iterates differ by a row of the local matrix; witness with one cell |
| C152 | `fvca5_mesh_loader::read_mesh` (`Model/Fvca5`); a file is a list of lines of tokens (code violates: corners of polygons, domain numbers that do not fit) | induction over blocks with the data as accumulator; the edges attached to a polygon are followed as a relation; invariants for arbitrary input; witnesses |
| C153 | `populate_mesh` and `load_mesh_fvca5_2d` (`Model/Fvca5`); the number of the side of an edge is a parameter, see C34 for the normals (code violates: result of `populate_mesh` dropped, repeated edges) | sorted containers and C03 for the look-ups, C16 for internal marks, C34 for renumbering; witnesses |
| C154 | `medit_mesh_loader<T,2>` (`Model/Medit`); a file is a list of tokens (code violates: end of file, result of `populate_mesh` dropped, reference numbers dropped, corners not tested) | induction over the blocks of the text with the data as accumulator; C153's lemmas on sorted containers and on flags; witnesses |
| C155 | `medit_mesh_loader<T,3>` (`Model/Medit`) (code violates: value of `populate_mesh`, references not tested) | one lemma per section of the text, then the renumbering of C31 and a fold over the boundary faces; witnesses |
| C156 | `golub_welsch`, `gauss_legendre`, `edge_quadrature`, `integrate` on `generic_mesh<T,1>` in exact arithmetic (`Model/GolubWelsch`); the eigenvalue solver is a parameter | orthogonality of Legendre polynomials of all degrees from their differential equation; eigenvectors are values of normalised Legendre polynomials; rows of the eigenvector matrix give discrete orthogonality; closed formulas by computation |
| C157 | `gmsh_geometry_loader<simplicial_mesh<T,2>>` (`Model/Gmsh`); results of the GMSH API are arguments (code violates: identifiers of subdomains, quadrangles accepted) | node tags are mapped to positions; the edges are the sorted list without repetitions; descriptors are followed through the loops over curves; witnesses |
| C158 | `gmsh_geometry_loader<simplicial_mesh<T,3>>` (`Model/Gmsh`), same functions with another shape (code violates: identifiers of subdomains, hexahedra accepted) | as C157 |
| C159 | `gmsh_geometry_loader<generic_mesh<T,3>>` (`Model/GmshPrism`): `gmsh_get_prisms`, `sort_uniq`, the table of surfaces and the search with `std::equal`, `detect_boundary_faces`, `populate_mesh`; `std::sort` is a parameter (code violates: other elements left out, read past the end for a side that is no face) | what the sort guarantees gives faces each once and an increasing table; the search is exact for faces, and its outcome for other sides depends on whether they begin a face; occurrences of a surface in volumes counted by prisms |
| C160 | `mapbox::earcut` of a ring without holes and of at most eighty points (`Model/Earcut`): circular list, ear test, filtering, repair of crossings, splitting; `split_in_raw_triangles` of 2D cells (code violates: the points of Cartesian cells are not in boundary order) | every pass keeps the sum of a signed integral along the ring and the nodes; a convex ring off a line always has an ear: if a vertex blocks a corner, all others are on the opposite side and the next corner is free; cutting an ear never leaves a line; a point off the lines is on one side of the cut; integrals of polynomials by Green's formula are signed integrals |
| C161 | `PostMesh` in two and three dimensions and the averages of `output_continuous_displacement` (`Model/PostMesh`); identifiers are not sorted within an element (code violates: Cartesian cells of the plane lose half their area) | the loops append to the points, so numbers given out stay valid; the tetrahedra of a cell are cones from its mean over fans from the means of its faces, whose signed volumes are those of `Lemmas/Polyhedron`; the plane is C160 with global numbers |
| C162 | `contact_contribution` and `compute_contact_terms` (`Model/Contact`): basis values, quadratures, normals and the strain reconstruction are data; the obstacle is the plane where the last coordinate vanishes (code violates: with face unknowns the gap follows the turned normal but the matrix does not; with Coulomb friction the derivative of the bound is missing) | sums over unknowns are strains, tractions and displacements; off the kinks negative part and projection have derivatives; at a level face the derivative of the normal is tangential; the witnesses are an edge turned to the direction (4, 3) and a sliding edge, both without stress |
| C163 | the same model; laws of Signorini and Tresca in `Spec/Contact` | variational inequality of the projection; case distinction at zero and at the sphere; for `theta = -1` each point gives a sum of squares since the derivative of the projection is between zero and the identity |
| C164 | `Model/GmshOut` (node sorting by angle, alignment test, fans, fixed orders in space, numbering, `PostMesh` conversion; the `Gmesh` library as lists of nodes and elements) | selection sort is a sorted permutation; seen from the vertex mean of a convex ring angles increase along the boundary except at one place, so sorting gives a rotation of the ring; induction over the fan for the tiling (code violates it for small polygons of five or more points, for 3D cells with neither four nor eight points, for hexahedra listed otherwise and on lines, where cells are written twice) |
| C165 | `Model/Silo` (`add_mesh` of every kind of mesh as the list of calls of the library, `silo_face_orientation`) | cutting the written lists at the written counts gives the cells back; for a plane face with the cell behind it the mean of the cell is behind the mean of the face, so the sign of the test tells the order (code violates it for faces whose first three points are aligned) |
| C166 | `Model/Silo` (`add_variable`, `add_expression`) | cases over the outcomes of the library (code violates it: results are dropped for vectors, expressions and `std::vector`) |
| C167 | `Model/Bingham` (`compute_auxiliar`, `make_rhs_alg`, `update_multiplier`) | orthonormality of the basis of symmetric tensors, Cauchy–Schwarz, strong convexity of the energy (code violates it: norms above the yield stress by less than 10⁻⁶ are treated as below) |
| C168 | `Model/Bingham` (`run`, `update_multiplier`) | monotonicity of the plastic part, identity for the squared distance, Young's inequality, telescoping sum (code violates it: the residual adds running sums) |
| C169 | `Model/HhoSolver` (`run_hho_diffusion_solver` with `Model/HhoLocal`, `Model/Condensation`, `Model/Assembly`) | kernel of the local form is the constants; the condensed form is the local form of the recovered vector; constants are carried from cell to cell to the boundary |
| C170 | `Model/HhoSolver` (both loops and the global solve) | rows of the global system, recovery of the cell unknowns; uniqueness from C169 |
| C171 | `Model/HhoSolver` (with the error accumulators) | polynomial consistency of reconstruction and stabilizations (C82, C83), fluxes cancel at inner faces, the interpolate solves the global system |
| C172 | `Model/TestData` (loads, solutions, gradients as functions on points) | partial derivatives by the rules of differentiation (`Lemmas/TestExpr`), identities by `ring` (code violates: load ignores the tensor in 1D and 3D; gradient of tutorial 2) |
| C173 | `Model/TestData` (elasticity, contact, hyperelasticity) | Jacobians, divergence of the stress rows; the cofactor matrix is divergence free for these deformations (code violates: sign in `g21` of the exact stress; initial velocity of the elastodynamic test) |
| C174 | `Model/TestData` (Stokes, vector Laplacian, Maxwell) | Jacobians and their divergences |
| C175 | `Model/DgSolver` (cell and face matrices, assembly through the modelled neighbour connectivity and `dg_assembler`) | sums over cells and their faces regrouped by face; positivity by Cauchy–Schwarz and the trace inequality (code violates: default penalty gives an indefinite matrix on the unit square) |
| C176 | `Model/DgSolver` (`run`) | integration by parts per cell, regrouped by face; uniqueness |
| C177 | `Model/CfemSolver` (marks, maps, assembly, expansion, cell values) | `compress_map` counts the free points; the assembled form is the energy of the extended vectors; positivity by following cells to the boundary (code violates: unused points give a singular matrix) |
| C178 | `Model/Nitsche` (`apply_dirichlet_via_nitsche`: face loop, blocks, load) | block updates as bilinear forms; consistency from C82 and the moments of the interpolate on the faces; positivity by completing the square (code violates: indefinite for the default penalization; in 3D the penalization is divided by the area of the face, not a length) |
| C179 | `Model/Heat` (`unsteady_laplacian_solver`: local matrices, `l2g`, assembly, time step) | triplets and block writes as bilinear forms; induction over the steps with `Mu_prev` carrying the previous solution; steady states from the consistency of C178 and cancelling normals; energy balance by testing with the new solution (code violates: with penalization 1 the operator is indefinite on the unit square) |
| C180 | `Model/Heat` (time loop, `L2H1_error`) | least number of steps with `N dt >= 2`; the accumulators as a sum (code violates: the error is measured against the previous time level) |
| C181 | `Model/PoissonApp` (`collect`, `dirichletFlags`, `makeTables`, `newRecdegs`, `assembleCall`) | vectors as lists that live from one call to the next; tables by induction over the faces (code violates from the second call on: the descriptors of the first call are never cleared and `resize` keeps the degrees) |
| C182 | `Model/PoissonApp` (`lhs`, `rhs`, condensed blocks, `rowResidual`, `cellSol`) | block algebra: every quantity depends on the trace `u_F + g` only, so the result solves the discrete problem with that trace and conversely (code violates: the jump is applied from both sides and cancels) |
| C183 | `Model/PoissonJump` (`jlhs`, `jrhs`, `jrow`, `jtake`, `jcell`) | the block algebra of C182 with the jump on one side only; both directions; two cells with a jump of 1 as example |
