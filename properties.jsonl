{"id": "C01", "title": "32-bit element identifiers round-trip", "statement": "Constructing a 32-bit element identifier from a raw value v and converting it back yields v for every v below 2^31; an identifier that was never given a value is the only one whose conversion throws; two identifiers built from v and w compare equal exactly when v = w, and `<` orders them as v < w, for v, w below 2^31. At and above 2^31 the packed representation loses the top bit, so distinct raw values become one identifier.", "quantifier": "every 32-bit raw value (and every pair of them)", "why_tests_cant": "A unit test samples a handful of small ids; the loss appears only in half of the 2^32 inputs and pairs of inputs (2^64) cannot be enumerated.", "anchors": ["libdiskpp/include/diskpp/mesh/ident.hpp: identifier<T, uint32_t, U>"]}
{"id": "C02", "title": "An invalid identifier is never mistaken for a valid one", "statement": "A default-constructed (invalid) element identifier never converts to a raw value (the conversion throws), and is never equal to an identifier that was constructed from a raw value.", "quantifier": "every raw value and both generic and 32-bit identifiers", "why_tests_cant": "Tests compare valid identifiers with each other; the clash happens only between an unset identifier and one particular raw value.", "anchors": ["libdiskpp/include/diskpp/mesh/ident.hpp: identifier, operator==, operator value_type"]}
{"id": "C03", "title": "Looking an element up in a sorted container finds exactly its position", "statement": "For a container of mesh elements sorted by a strict total order without repetitions, looking an element up reports `found` with index i exactly when the element is stored at position i, and reports `not found` exactly when the element is not stored. `mesh::lookup` throws exactly in the second case and otherwise returns that index, and `mesh[lookup(e)] = e`.", "quantifier": "every container length, every sorted container and every element", "why_tests_cant": "The binary search has data-dependent paths for each length; tests cover a few meshes only, and never absent elements next to every gap.", "anchors": ["libdiskpp/include/diskpp/mesh/mesh.hpp: find_element_id, mesh::lookup, mesh::operator[]"]}
{"id": "C04", "title": "Offsets of elements: exact for stored elements, silent for absent ones", "statement": "`offset(mesh, element)` returns the position of every element stored in a sorted repetition-free mesh. For an element that is not stored it must not return the position of some other element.", "quantifier": "every sorted mesh container and every element", "why_tests_cant": "Callers always pass stored elements in tests; the silent wrong answer for absent elements needs an adversarial element.", "anchors": ["libdiskpp/include/diskpp/mesh/mesh.hpp: offset"]}
{"id": "C05", "title": "sort_uniq canonicalises a list of elements", "statement": "After `sort_uniq(v)`, v is strictly increasing, contains exactly the elements it contained before, is unchanged by a second call, and depends only on the set of elements (any two lists with the same elements give the same result).", "quantifier": "every list of elements of a totally ordered type", "why_tests_cant": "All loaders rely on it for arbitrary input order and multiplicity; tests fix one file order.", "anchors": ["libdiskpp/include/diskpp/loaders/loader_utils.hpp: sort_uniq"]}
{"id": "C06", "title": "The flat polygon store returns the polygons that were added", "statement": "After adding any sequence of polygons (each a list of point ids), iterating over the store yields the same number of polygons, in the same order, with the same point ids.", "quantifier": "every sequence of polygons of any sizes", "why_tests_cant": "Size prefixes and payload share one flat array, so an off-by-one shows only for particular size sequences.", "anchors": ["libdiskpp/include/diskpp/loaders/polygon.hpp: polygon_store, add_polygon, iterator"]}
{"id": "C07", "title": "Integer-exponent power", "statement": "`iexp_pow(x, n)` equals the n-fold product of x with itself for every base and exponent, using a number of multiplications logarithmic in n.", "quantifier": "every exponent n and every base of every commutative ring", "why_tests_cant": "Exponents are unbounded and the recursion branches on each bit of n.", "anchors": ["libdiskpp/include/diskpp/bases/bases_all.hpp: iexp_pow", "libdiskpp/include/diskpp/common/util.h: iexp_pow"]}
{"id": "C08", "title": "Factorial and binomial helpers", "statement": "`binomial(n,k)` equals the binomial coefficient n over k for all n, k (in particular 0 when k > n).", "quantifier": "every pair of 32-bit n, k", "why_tests_cant": "Tests use small n and k ≤ n, and 32-bit wrap-around in intermediate factorials appears only from n = 13.", "anchors": ["libdiskpp/src/common/util.cpp: fact, binomial"]}
{"id": "C09", "title": "Polynomial basis sizes", "statement": "The size reported for a scalar basis of degree k in dimension d is the number of monomials of total degree ≤ k in d variables, i.e. C(k+d, d), with no truncation in the integer division; vector, matrix and symmetric-matrix bases have size C(k+d,d) times the number of independent components.", "quantifier": "every degree k and dimension d", "why_tests_cant": "The formula divides two products; exactness must hold for infinitely many (k,d).", "anchors": ["libdiskpp/include/diskpp/bases/bases_scalar.hpp: scalar_basis_size", "libdiskpp/include/diskpp/bases/bases_vector.hpp: vector_basis_size", "libdiskpp/include/diskpp/bases/bases_matrix.hpp: matrix_basis_size, sym_matrix_basis_size", "libdiskpp/include/diskpp/bases/bases_new.hpp: size_of_degree"]}
{"id": "C10", "title": "The monomial loops enumerate every monomial exactly once", "statement": "In 2D and 3D the evaluation of a scaled monomial basis of degree k writes exactly as many entries as its reported size, never outside the result vector; each entry is a monomial of total degree ≤ k, every such exponent tuple appears exactly once, and exponents are ordered by total degree. Hence the values at the barycenter are 1 for the first function and 0 for the others.", "quantifier": "every degree k, evaluation point, and barycenter/scaling", "why_tests_cant": "Only a finite set of degrees can be executed; completeness and uniqueness quantify over all exponent tuples.", "anchors": ["libdiskpp/include/diskpp/bases/bases_scalar.hpp: scaled_monomial_scalar_basis::eval_functions", "libdiskpp/include/diskpp/bases/bases_new.hpp: scalar_monomial::operator()", "libdiskpp/include/diskpp/bases/bases_raw.hpp"]}
{"id": "C11", "title": "Basis gradients are the derivatives of the basis functions", "statement": "For the scaled monomial cell bases in 1D, 2D and 3D and the newer monomial cell bases in 2D and 3D, the gradient array returned for a point is, entry by entry, the gradient of the corresponding basis function at that point, for any degree, any point, any affine map (barycenter, scaling, axes) used by the basis.", "quantifier": "every degree, point and affine frame", "why_tests_cant": "A finite-difference test samples points and degrees and cannot distinguish a wrong coefficient at one degree from rounding.", "anchors": ["libdiskpp/include/diskpp/bases/bases_scalar.hpp: eval_gradients", "libdiskpp/include/diskpp/bases/bases_new.hpp: grad"]}
{"id": "C12", "title": "1D Legendre values and derivatives", "statement": "For every degree d ≤ 10, the 1D Legendre evaluation returns the Legendre polynomial of degree d (three-term recurrence) and the derivative evaluation returns its derivative, at every point.", "quantifier": "every point x and every degree 0..10", "why_tests_cant": "The coefficient tables are hand-typed; a wrong coefficient in the derivative of a high degree escapes tests that use degrees ≤ 3.", "anchors": ["libdiskpp/include/diskpp/bases/bases_scalar.hpp: legendre_1D::eval_poly, eval_deriv"]}
{"id": "C13", "title": "Rational arithmetic keeps its normal form", "statement": "Every value obtained from the rational-number class by construction from (n,d) with d ≠ 0 and by +, -, *, / represents the exact rational result, has a positive denominator, and `<` agrees with the order of the represented rationals.", "quantifier": "every pair of integers and every sequence of arithmetic operations", "why_tests_cant": "Sign errors occur only for particular sign combinations deep in an operation sequence.", "anchors": ["libdiskpp/include/diskpp/mesh/rational.hpp: rational, gcd, operator*=, operator/=, operator<"]}
{"id": "C14", "title": "Boundary and internal faces partition the faces", "statement": "On every mesh, each face is reported boundary or internal but never both; the boundary and internal face counts add up to the number of faces; iterating over the boundary (internal) faces visits each boundary (internal) face exactly once, in storage order, and nothing else; the iterator never runs past the end.", "quantifier": "every mesh and every assignment of boundary flags", "why_tests_cant": "The skipping iterator's behaviour depends on the position of every flag (2^n patterns), including leading, trailing and all-false patterns.", "anchors": ["libdiskpp/include/diskpp/mesh/mesh.hpp: boundary_faces_size, internal_faces_size, boundary_faces_begin, internal_faces_begin, filter_iterator"]}
{"id": "C15", "title": "Boundary ids are reported for boundary faces only, and listed without repetition", "statement": "`boundary_id(face)` returns the stored id on boundary faces and throws on others; the list of boundary ids contains exactly the ids carried by at least one boundary face, each once, in increasing order.", "quantifier": "every mesh, flag/id assignment and face", "why_tests_cant": "Needs all combinations of flags and duplicate ids.", "anchors": ["libdiskpp/include/diskpp/mesh/mesh.hpp: boundary_id, boundary_id_list, is_boundary"]}
{"id": "C16", "title": "Cell neighbours are symmetric and complete", "statement": "If the connectivity of a mesh is computed without error then for every face f of cell c, the neighbour of c through f is the unique other cell having f as a face, or none if there is no other; the relation is symmetric; the computation throws exactly when some face belongs to more than two cells; internal-face marking marks exactly those boundary-flagged faces that have two owners (interfaces) and changes nothing else.", "quantifier": "every list of sorted cells, each with an arbitrary list of distinct faces (the behaviour with a repeated face is shown separately)", "why_tests_cant": "Symmetry and completeness are relations between all pairs of cells of arbitrary meshes.", "anchors": ["libdiskpp/include/diskpp/mesh/mesh.hpp: neighbour_connectivity, mark_internal_faces"]}
{"id": "C17", "title": "Boundary condition bookkeeping: last assignment wins", "statement": "After any sequence of add-boundary-condition calls on a well-formed mesh, a face carries a Dirichlet/Neumann/Robin/contact condition exactly when some call of that kind covered it; its type and function for that kind are those of the last such call (the function scaled by the last factor set, except for contact); faces never covered by a kind carry no condition of that kind and asking for their function throws. Calls of one kind never affect another kind.", "quantifier": "every sequence of calls and every assignment of boundary ids to faces", "why_tests_cant": "Histories are unbounded; tests use one call per id.", "anchors": ["libdiskpp/include/diskpp/boundary_conditions/boundary_conditions.hpp: BoundaryConditions::addDirichletBC, addNeumannBC, addRobinBC, addContactBC, addDirichletEverywhere"]}
{"id": "C18", "title": "Boundary condition face counts are the number of faces of each kind", "statement": "After any sequence of add-boundary-condition calls, the reported number of Dirichlet (Neumann, Robin, contact) faces equals the number of faces for which the corresponding `is_..._face` query is true.", "quantifier": "every sequence of calls", "why_tests_cant": "The counts are incremental and only diverge when one face is covered twice.", "anchors": ["libdiskpp/include/diskpp/boundary_conditions/boundary_conditions.hpp: nb_faces_dirichlet, nb_faces_neumann, nb_faces_robin, nb_faces_contact"]}
{"id": "C19", "title": "Boundary id accessors return the id of their own condition kind", "statement": "`dirichlet/neumann/robin/contact_boundary_id(face)` returns the id under which the governing condition of that kind was added on the face (0 for a condition added everywhere).", "quantifier": "every face and every boundary condition state", "why_tests_cant": "The accessor for one kind forwards to another kind; only a state with two kinds on different ids shows it.", "anchors": ["libdiskpp/include/diskpp/boundary_conditions/boundary_conditions.hpp: contact_boundary_id, robin_boundary_id, dirichlet_boundary_id, neumann_boundary_id"]}
{"id": "C20", "title": "Number of unknowns imposed by a Dirichlet type", "statement": "For vector problems of dimension 2 and 3 with n face unknowns (n a multiple of the dimension), the number of imposed unknowns reported for a face is the number of constrained components times n/dimension for each Dirichlet type, types that mention the z component are rejected in 2D, and non-Dirichlet types are rejected.", "quantifier": "every boundary type, dimension and unknown count", "why_tests_cant": "A table with error branches per dimension; completeness over all enumerators.", "anchors": ["libdiskpp/include/diskpp/boundary_conditions/boundary_conditions.hpp: imposed_dofs"]}
{"id": "C21", "title": "Compress/expand numbering of unknown faces is a bijection", "statement": "For every mesh and every choice of Dirichlet faces, the assembler's compressed numbering maps the non-Dirichlet faces one-to-one, in order, onto 0..n-1 where n is the number of non-Dirichlet faces; expanding is its inverse; the system size is n times the face basis size, and distinct non-Dirichlet faces occupy disjoint ranges of unknowns that cover the system.", "quantifier": "every number of faces and every subset of Dirichlet faces, every face basis size", "why_tests_cant": "2^n subsets of faces.", "anchors": ["libdiskpp/include/diskpp/methods/hho_assemblers.hpp: basic_condensed_assembler", "libdiskpp/include/diskpp/methods/implementation_hho/assembler_hho.hpp: diffusion_condensed_assembler"]}
{"id": "C22", "title": "Assembly with Dirichlet elimination yields the restricted global system", "statement": "The matrix and right-hand side accumulated by assembling all cells satisfy: for every vector of face unknowns u on non-Dirichlet faces, (A u - b) at a non-Dirichlet unknown equals the sum over the cells of the local residual (lhs * w - rhs) where w is u on non-Dirichlet faces and the prescribed Dirichlet values on Dirichlet faces. Hence A u = b iff every non-Dirichlet row of the un-eliminated global residual vanishes.", "quantifier": "every mesh connectivity, local matrices, Dirichlet subset, Dirichlet values and candidate solution", "why_tests_cant": "It is an algebraic identity between sums over all cells; testing checks one instance to rounding error.", "anchors": ["libdiskpp/include/diskpp/methods/implementation_hho/assembler_hho.hpp: diffusion_condensed_assembler::assemble"]}
{"id": "C23", "title": "Local data extraction returns solution and boundary values", "statement": "Extracting the local face unknowns of a cell from a global solution returns, face by face, the Dirichlet projection on Dirichlet faces and the slice of the global solution at the face's compressed position on the others; the slices requested never leave the solution vector.", "quantifier": "every mesh, subset of Dirichlet faces and solution vector", "why_tests_cant": "Offset arithmetic depends on all flags of preceding faces.", "anchors": ["libdiskpp/include/diskpp/methods/implementation_hho/assembler_hho.hpp: take_local_solution, take_local_data", "libdiskpp/include/diskpp/methods/hho_assemblers.hpp: take_local_solution"]}
{"id": "C24", "title": "Static condensation is equivalent to the full local system", "statement": "When the cell-cell block is invertible, (uT,uF) solves the full local system exactly when uF solves the condensed system and uT is what decondensation computes from uF. Sizes other than cell or cell+faces for the right-hand side are rejected.", "quantifier": "every block sizes, matrices with invertible cell block, right-hand sides and unknowns", "why_tests_cant": "An equivalence of two linear systems for all matrices.", "anchors": ["libdiskpp/include/diskpp/methods/implementation_hho/scalar_hho_condensation.hpp: make_scalar_static_condensation, make_scalar_static_decondensation", "libdiskpp/include/diskpp/methods/implementation_hho/vector_hho_condensation.hpp", "libdiskpp/include/diskpp/methods/hho_assemblers.hpp: schur, deschur"]}
{"id": "C25", "title": "Discontinuous Galerkin blocks are disjoint and cover the system", "statement": "The block assembler places the (i,j) local entry of the coupling of cells a and b at global row cbs*offset(a)+i and column cbs*offset(b)+j; different cells own disjoint row ranges, the ranges cover 0..cbs*cells-1, and after finalising, the matrix is the sum of the contributions assembled since the previous finalisation and the right-hand side the sum of all contributions.", "quantifier": "every number of cells, basis size and sequence of assemble calls", "why_tests_cant": "Requires all pairs of cells and unbounded call sequences.", "anchors": ["libdiskpp/include/diskpp/methods/implementation_dg/assembler.hpp: discontinuous_galerkin_assembler"]}
{"id": "C26", "title": "A direction not marked as assembled can never be used as an index", "statement": "An assembly index converts to a number exactly when it is marked as assembled; otherwise the conversion throws, so no eliminated unknown can reach the global matrix.", "quantifier": "every index and mark", "why_tests_cant": "Trivial per instance but must hold for all states of the assembler.", "anchors": ["libdiskpp/include/diskpp/methods/implementation_hho/assembler_hho.hpp: assembly_index"]}
{"id": "C27", "title": "The recursive hexagonal-mesh generator tiles the square", "statement": "For every refinement level l, the generator visits each 4x4 tile of the 2^(l+2) square grid exactly once; the polygons it emits have total area (2^(l+2))^2; their number and the number of boundary edges per side are the closed forms in l; every emitted vertex lies in the square.", "quantifier": "every refinement level up to 61 (above, 2^(l+2) does not fit size_t)", "why_tests_cant": "Levels are unbounded and the number of polygons grows as 4^l.", "anchors": ["libdiskpp/include/diskpp/mesh/meshgen_fvca5hex.hpp: hexmesh_work, make_hexmesh"]}
{"id": "C28", "title": "Hexagonal mesh conformity", "statement": "For every level, every edge of the generated hexagonal mesh belongs to at most two polygons (the owner computation never throws), and the edges listed as boundary edges are exactly those with one owner.", "quantifier": "every refinement level up to 61 and every edge", "why_tests_cant": "Conformity between tiles generated in different recursive calls, for all levels.", "anchors": ["libdiskpp/include/diskpp/mesh/meshgen_fvca5hex.hpp: make_hexmesh, update_geometry"]}
{"id": "C29", "title": "Uniform 1D meshes", "statement": "For N ≥ 1 and x_min < x_max, the uniform loader creates N+1 equally spaced nodes from x_min to x_max and N edges joining consecutive nodes, and only the first and last nodes are boundary.", "quantifier": "every N and interval", "why_tests_cant": "N is unbounded.", "anchors": ["libdiskpp/include/diskpp/loaders/loader_uniform.hpp: uniform_mesh_loader<T,1>"]}
{"id": "C30", "title": "Cells of single-element meshes can look their faces up", "statement": "In every single-element mesh built by the generator, each face reported for the cell can be looked up in the mesh.", "quantifier": "every element kind (triangle, tetrahedron, cartesian quadrilateral/hexahedron, polygon of any size)", "why_tests_cant": "The stored face order must agree with the face enumerator and with the sortedness that the binary search requires; the generic polygon has unbounded size.", "anchors": ["libdiskpp/include/diskpp/mesh/meshgen.hpp: make_single_element_mesh", "libdiskpp/include/diskpp/geometry/geometry_simplicial.hpp: faces", "libdiskpp/include/diskpp/geometry/geometry_hexahedral.hpp: faces"]}
{"id": "C31", "title": "Renumbering after sorting keeps references pointing at the same entities", "statement": "When a loader sorts entities by key and rewrites the references to them through a conversion table, every rewritten reference denotes the same entity as before, the table is a permutation, and no reference is out of range.", "quantifier": "every list of entities and every list of in-range references", "why_tests_cant": "n! orders.", "anchors": ["libdiskpp/include/diskpp/loaders/loader_fvca6.hpp: populate_mesh", "libdiskpp/include/diskpp/loaders/loader_poly.hpp: populate_mesh"]}
{"id": "C32", "title": "Index base conversion in mesh files", "statement": "Every 1-based index read from an FVCA6 file is converted to the same 0-based numbering, for all sections of the file.", "quantifier": "every file content", "why_tests_cant": "One section misses the shift; tests that only check counts do not see it.", "anchors": ["libdiskpp/include/diskpp/loaders/loader_fvca6.hpp: read_fvca6_line, fvca6_read"]}
{"id": "C33", "title": "Line reading of memory-mapped files", "statement": "Reading lines from a mapped file until the end yields exactly the lines of the file, including a last line without terminator; the end-of-file predicate is true exactly when everything has been consumed.", "quantifier": "every file content", "why_tests_cant": "Depends on every content and on the absence of a trailing newline.", "anchors": ["libdiskpp/src/common/mapped_file.cpp: mapped_file::get_line, mapped_file::end"]}
{"id": "C34", "title": "Hypercube boundary numbering", "statement": "In 2D and 3D, a face whose unit normal is within 0.01 of a coordinate direction gets the number of that side; the four (six) sides get distinct numbers; a normal away from all coordinate directions gets none; renumbering succeeds exactly when every face without neighbour has such a normal, and then marks exactly those faces as boundary with the number of their side.", "quantifier": "every normal and every list of faces", "why_tests_cant": "The decision is a chain of comparisons on real numbers; tests use axis-aligned normals only.", "anchors": ["libdiskpp/include/diskpp/loaders/loader_utils.hpp: boundary_number, renumber_hypercube_boundaries"]}
{"id": "C35", "title": "Point-in-polygon test", "statement": "The 2D `is_inside` test on a convex counter-clockwise polygon returns true for points inside and false for points outside.", "quantifier": "every polygon and point", "why_tests_cant": "Continuous domain; a test with only inside points passes trivially.", "anchors": ["libdiskpp/include/diskpp/geometry/geometry_all.hpp: is_inside"]}
{"id": "C36", "title": "Point-in-tetrahedron test", "statement": "For a non-degenerate tetrahedron, the 3D `is_inside` test returns true on interior points and false on points strictly outside, regardless of the orientation of the vertices.", "quantifier": "every tetrahedron and point", "why_tests_cant": "Continuous domain and orientation dependence.", "anchors": ["libdiskpp/include/diskpp/geometry/geometry_simplicial.hpp: is_inside"]}
{"id": "C37", "title": "Fan triangulation preserves area", "statement": "The signed areas of the triangles obtained by joining any centre point to the edges of a polygon sum to the shoelace area of the polygon, for every polygon and every centre; in particular the sub-triangles used for integration of convex polygons have total area equal to the polygon's.", "quantifier": "every polygon (any number of vertices) and centre", "why_tests_cant": "Unbounded number of vertices, continuous coordinates.", "anchors": ["libdiskpp/include/diskpp/geometry/geometry_generic_triangulations.hpp: triangulate_convex_polygon", "libdiskpp/include/diskpp/quadratures/bits/quad_phys_generic.hpp: integrate_convex", "libdiskpp/include/diskpp/geometry/geometry_generic.hpp: measure"]}
{"id": "C38", "title": "Kahan triangle area equals half the cross product", "statement": "The side-length formula used for triangle areas equals half the absolute value of the cross product of two sides, for every triangle, including degenerate ones, in exact arithmetic; the argument of the square root is never negative.", "quantifier": "every triangle", "why_tests_cant": "Continuous domain.", "anchors": ["libdiskpp/include/diskpp/common/simplicial_formula.hpp: area_triangle_kahan"]}
{"id": "C39", "title": "Simplex measures", "statement": "The rational measure of a triangle equals its area and the rational measure of a tetrahedron equals its (signed) volume.", "quantifier": "every rational triangle and tetrahedron", "why_tests_cant": "A factor of two is invisible in tests that only use ratios.", "anchors": ["libdiskpp/include/diskpp/geometry/geometry_simplicial.hpp: measure"]}
{"id": "C40", "title": "Bounding boxes contain their points", "statement": "The bounding box computed for a mesh contains all mesh points and is the smallest such box.", "quantifier": "every list of points", "why_tests_cant": "The error depends on the relative order of coordinates over the sequence of points.", "anchors": ["libdiskpp/include/diskpp/mesh/mesh.hpp: bounding_box"]}
{"id": "C41", "title": "Gauss quadrature tables integrate polynomials", "statement": "gauss_legendre accepts exactly the degrees d ≤ 39 and gauss_lobatto exactly d ≤ 37. An accepted degree returns d/2+1 (Lobatto: d/2+2) points, and the rule integrates every polynomial of degree ≤ d over any interval, and over any segment in any dimension, with an error at most 2e-14 times half the length times the sum of the absolute coefficients of the polynomial on the reference interval [-1,1]. This allows for the digits missing from the tables and for their rounding to doubles; the arithmetic after the table lookup is exact.", "quantifier": "every degree, segment and polynomial", "why_tests_cant": "Polynomials and segments are continuous; the tables have 210 nodes of 15 digits each.", "anchors": ["libdiskpp/include/diskpp/quadratures/bits/quad_raw_gauss.hpp: gauss_legendre", "libdiskpp/include/diskpp/quadratures/bits/quad_raw_gauss_lobatto.hpp: gauss_lobatto"]}
{"id": "C42", "title": "Triangle quadrature degree guard", "statement": "For every requested degree the Dunavant rule either throws or returns a non-empty rule whose weights sum to the area of the triangle.", "quantifier": "every degree and triangle", "why_tests_cant": "Only one degree at the boundary of the table misbehaves.", "anchors": ["libdiskpp/include/diskpp/quadratures/bits/quad_raw_triangle.hpp: dunavant"]}
{"id": "C43", "title": "Time stepping list covers the requested interval", "statement": "Starting from an evenly divided interval [0,T], after any sequence of removing (accepting) and splitting the current time step, the remaining steps are contiguous, ordered, end at T, and start where the last accepted step ended; the number of steps equals remaining plus accepted; every step's level is the number of splits that produced it and its length is the initial length divided by 2^level.", "quantifier": "every sequence of accept and split operations, every number of steps", "why_tests_cant": "Unbounded histories.", "anchors": ["libdiskpp/include/diskpp/mechanics/NewtonSolver/TimeManager.hpp: ListOfTimeStep"]}
{"id": "C44", "title": "Stress/strain conversion to and from the MGIS layout round-trips", "statement": "Converting a symmetric (or full) 3x3 matrix to the vector layout of the material library and back returns the same matrix, for each of the supported vector sizes.", "quantifier": "every matrix of the corresponding class and sizes 4, 5, 6, 9", "why_tests_cant": "Matrices are continuous; the defect is in one component of one size.", "anchors": ["libdiskpp/include/diskpp/mechanics/behaviors/tensor_conversion.hpp: convertMatrixToMgis, convertMatrixFromMgis"]}
{"id": "C45", "title": "Fourth-order tensor algebra matches index notation", "statement": "Reading a coefficient after writing it returns the value and leaves other coefficients alone; tensor-matrix products, Kronecker and identity tensors satisfy their index-notation definitions: the identity tensor maps every matrix to itself, the symmetric identity to its symmetric part, IxI to trace times identity, and double contraction is associative.", "quantifier": "every tensor, matrix and index (dimensions 1..3 and, where the code is generic, any dimension)", "why_tests_cant": "81 coefficients and continuous values.", "anchors": ["libdiskpp/include/diskpp/mechanics/behaviors/maths_tensor.hpp: coeff, tm_prod, Kronecker, IdentityTensor4, IdentitySymTensor4, IxI, ContractedProduct, ProductSup, ProductInf, transpose"]}
{"id": "C46", "title": "Conversion of the tangent modulus has major symmetry", "statement": "The modulus obtained from a material tangent, stress and deformation gradient has major symmetry A_iJkL = A_kLiJ for every input, and equals F C F^T + stress terms whenever the input tangent has major symmetry and the stress is symmetric.", "quantifier": "every tangent, stress and deformation gradient", "why_tests_cant": "The loop overwrites entries, so the result depends on iteration order for asymmetric input.", "anchors": ["libdiskpp/include/diskpp/mechanics/behaviors/tensor_conversion.hpp: convertCtoA"]}
{"id": "C47", "title": "Conjugate gradient keeps the true residual and reports failures", "statement": "At every iteration the residual vector equals b - A x; size mismatches are reported by returning false without modifying x; the function returns true only if the residual criterion was met.", "quantifier": "every matrix, right-hand side, initial guess and iteration count", "why_tests_cant": "Unbounded number of iterations; the failure to converge is data dependent.", "anchors": ["libdiskpp/include/diskpp/solvers/solver.hpp: conjugated_gradient"]}
{"id": "C48", "title": "Per-element degree information", "statement": "Setting the degree (or the unknowns flag) of one cell or face changes exactly that entry, and reading any entry returns the last value set for it, for every sequence of updates; initial values are the constructor's.", "quantifier": "every sequence of updates", "why_tests_cant": "Unbounded histories.", "anchors": ["libdiskpp/include/diskpp/adaptivity/adaptivity.hpp: MeshDegreeInfo, DegreeInfo"]}
{"id": "C49", "title": "Temporary one-based view of a sparse matrix is undone", "statement": "Taking a one-based raw view of a sparse matrix and releasing it (explicitly, by destruction, or both) leaves the matrix index arrays exactly as they were.", "quantifier": "every sparse matrix and every order of restore/destroy", "why_tests_cant": "Depends on the history of restore calls and must hold for all index arrays.", "anchors": ["libdiskpp/include/diskpp/common/eigen.hpp: eigen_sparse_raw"]}
{"id": "C50", "title": "Mesh hierarchy point location respects its level bound", "statement": "Locating a point in a mesh hierarchy at any requested level never reads past the stored levels, and levels that do not exist are rejected.", "quantifier": "every hierarchy depth and requested level", "why_tests_cant": "Only the single level equal to the number of stored levels misbehaves.", "anchors": ["libdiskpp/include/diskpp/mesh/mesh_hierarchy.hpp: locate_recursive, locate_point"]}
{"id": "C51", "title": "Uniform triangle refinement", "statement": "One uniform refinement of a conforming triangle mesh multiplies the number of triangles by four, each new triangle has a quarter of the area of its parent, every new edge is shared by at most two triangles, and boundary edges keep their boundary id on both halves.", "quantifier": "every conforming mesh and number of refinements", "why_tests_cant": "Unbounded number of refinements.", "anchors": ["libdiskpp/include/diskpp/mesh/meshgen.hpp: simple_mesher::refine", "libdiskpp/include/diskpp/mesh/mesh_hierarchy.hpp: refine"]}
{"id": "C52", "title": "Element comparison is a consistent order", "statement": "Equality of generic elements (polygonal/polyhedral cells) is symmetric and agrees with the order: two elements are equal exactly when neither is smaller.", "quantifier": "every pair of elements with any number of faces", "why_tests_cant": "Asymmetry occurs only for elements of different sizes where one is a prefix of the other.", "anchors": ["libdiskpp/include/diskpp/geometry/element_generic.hpp: generic_element_base, operator==, operator<"]}
{"id": "C53", "title": "Local matrices built by quadrature are symmetric positive semi-definite", "statement": "Mass and stiffness matrices accumulated from quadrature points with non-negative weights are symmetric and positive semi-definite, for every basis and rule; with positive weights, v^T M v = 0 exactly when the function with coefficients v vanishes at all quadrature points.", "quantifier": "every basis, number of points and coefficient vector", "why_tests_cant": "Continuous and of unbounded dimension.", "anchors": ["libdiskpp/include/diskpp/bases/bases_utils.hpp: make_mass_matrix, make_stiffness_matrix, make_rhs"]}
{"id": "C54", "title": "Raviart-Thomas bases contain the functions they announce", "statement": "A Raviart-Thomas basis of degree k ≥ 1 on a simplex evaluates to as many vector functions as its reported size: the vector monomials of degree ≤ k-1 followed by (x - barycenter) times every monomial of degree exactly k-1; degree 0 is rejected.", "quantifier": "every degree, point, barycenter and frame, dimensions 2 and 3", "why_tests_cant": "The start index of the second block depends on the degree through a guarded subtraction; a zero function gives a singular mass matrix only at one degree.", "anchors": ["libdiskpp/include/diskpp/bases/bases_vector.hpp: scaled_monomial_vector_basis_RT::eval_functions, vector_basis_size_RT"]}
{"id": "C55", "title": "Gradients of the newer one-dimensional basis", "statement": "For every degree and every scale factor set by the user, the gradient array of the newer 1D monomial basis has as many entries as the basis and each is the derivative of the corresponding function.", "quantifier": "every degree, cell, scale factor and point", "why_tests_cant": "Degree 0 and non-default scale factors are never exercised.", "anchors": ["libdiskpp/include/diskpp/bases/bases_new.hpp: scalar_monomial (1D cell)::grad, scalefactor"]}
{"id": "C56", "title": "The 1D Legendre basis is orthonormal on [-1,1]", "statement": "For all degrees i, j ≤ 10, the integral over [-1,1] of the product of the i-th and j-th functions returned by the 1D Legendre evaluation is 1 if i = j and 0 otherwise.", "quantifier": "every pair of degrees 0..10 (exact integrals, not quadrature)", "why_tests_cant": "Tests would evaluate the integral by quadrature with tolerance; a wrong low-order digit of a coefficient is hidden.", "anchors": ["libdiskpp/include/diskpp/bases/bases_scalar.hpp: legendre_1D::eval_functions"]}
{"id": "C57", "title": "A face carries at most one kind of boundary condition", "statement": "After any sequence of add-boundary-condition calls, no face answers yes to two of is_dirichlet_face, is_neumann_face, is_robin_face, is_contact_face.", "quantifier": "every sequence of calls", "why_tests_cant": "The four kinds are stored independently; only histories that reuse a boundary id for two kinds show the overlap.", "anchors": ["libdiskpp/include/diskpp/boundary_conditions/boundary_conditions.hpp: addDirichletBC, addNeumannBC, addRobinBC, addContactBC"]}
{"id": "C58", "title": "Faces with and without contact split the faces of a cell consistently with the contact count", "statement": "For every cell, faces_with_contact and faces_without_contact together list its faces once each in order, the faces with contact are exactly those covered by a contact call, and their number is howmany_contact_faces. faces_with_unknowns lists the faces whose last contact call is not of type SIGNORINI_CELL.", "quantifier": "every sequence of calls and every cell", "why_tests_cant": "The lists test the type, the count tests the flag; they only disagree for special types.", "anchors": ["libdiskpp/include/diskpp/boundary_conditions/boundary_conditions.hpp: faces_with_contact, faces_without_contact, howmany_contact_faces"]}
{"id": "C59", "title": "The basic condensed assembler imposes zero Dirichlet values", "statement": "The matrix and right-hand side accumulated by the basic condensed assembler satisfy: for every vector u of unknowns, (A u - b) at an unknown equals the sum over the cells of the local residual (lhs * w - rhs), where w is u on non-Dirichlet faces and zero on Dirichlet faces; no entry outside the system is ever written.", "quantifier": "every mesh connectivity, local matrices, vector of Dirichlet flags of the length of the face list and candidate solution", "why_tests_cant": "An algebraic identity over all cells and flag vectors.", "anchors": ["libdiskpp/include/diskpp/methods/hho_assemblers.hpp: basic_condensed_assembler::assemble"]}
{"id": "C60", "title": "Conjugate gradient solves symmetric positive definite systems", "statement": "For a symmetric matrix, residuals of different iterations are orthogonal and search directions are conjugate; every iteration lowers the energy; for a symmetric positive definite matrix, a non-negative tolerance and an iteration limit that is automatic or at least the number of unknowns, the returned vector meets the residual criterion unless the residual grew past its allowed maximum.", "quantifier": "every size, matrix, right-hand side and initial guess", "why_tests_cant": "Continuous domain and unbounded dimension; tests see a few well-conditioned matrices.", "anchors": ["libdiskpp/include/diskpp/solvers/solver.hpp: conjugated_gradient"]}
{"id": "C61", "title": "Measure of a polygon", "statement": "The measure of a polygonal cell of a generic 2D mesh, computed by the divergence theorem from its faces and outward normals, equals its area, whatever the order of the faces and the order of the two points of each face, for convex and non-convex simple polygons.", "quantifier": "every polygon (any number of vertices) and storage order of its faces", "why_tests_cant": "Test meshes contain convex cells only; the failing shapes are non-convex ones for which the barycenter sees a face from outside.", "anchors": ["libdiskpp/include/diskpp/geometry/geometry_generic.hpp: measure", "libdiskpp/include/diskpp/geometry/geometry_all.hpp: normal"]}
{"id": "C62", "title": "Barycenter of a polygon", "statement": "The barycenter of a polygonal cell of nonzero area is the mean of the centroids of the triangles joining any fixed point to its sides, weighted by their signed areas; for a convex polygon it is strictly inside.", "quantifier": "every polygon and every fixed point", "why_tests_cant": "Continuous domain, any number of vertices.", "anchors": ["libdiskpp/include/diskpp/geometry/geometry_generic.hpp: barycenter"]}
{"id": "C63", "title": "Convexity test of polygons", "statement": "is_convex returns true exactly for the convex polygons given counter-clockwise.", "quantifier": "every polygon", "why_tests_cant": "The local turning test only fails on self-overlapping or clockwise vertex lists.", "anchors": ["libdiskpp/include/diskpp/geometry/geometry_generic.hpp: is_convex"]}
{"id": "C64", "title": "Outward unit normals", "statement": "For non-degenerate triangles, tetrahedra and convex polygons, normal(msh, cl, fc) is a unit vector orthogonal to the face that points away from the cell: every vertex of the cell is on the other side of the face or on it. This does not depend on the order of the points of the face.", "quantifier": "every non-degenerate cell and face", "why_tests_cant": "Continuous domain; the sign decision depends on the shape of the cell.", "anchors": ["libdiskpp/include/diskpp/geometry/geometry_all.hpp: normal, barycenter", "libdiskpp/include/diskpp/geometry/geometry_generic.hpp: barycenter"]}
{"id": "C65", "title": "Sizes of elements", "statement": "diameter is the largest distance between two points of an element; diameters and diameter_boundingbox with the default axes are both the widths of its bounding box; bb_barycenter is the centre of that box, so no point is further from it than half a width in any direction.", "quantifier": "every non-empty list of points in any dimension", "why_tests_cant": "Continuous domain, any number of points; agreement of two independent computations.", "anchors": ["libdiskpp/include/diskpp/geometry/geometry_all.hpp: diameter, diameters, bb_barycenter, diameter_boundingbox"]}
{"id": "C66", "title": "Local coordinates of the scaled monomial bases", "statement": "With any axes, the local coordinates of the points of a cell spread over an interval of length exactly 2 in every direction and are at most 2 in absolute value when the centre is a convex combination of the points; the centre has coordinates 0; for orthonormal axes, moving by half the box length along an axis adds 1 to that coordinate only. For 2D faces the coordinate runs linearly from -1 to 1.", "quantifier": "every cell with nonzero widths, every axes matrix", "why_tests_cant": "Continuous domain; axes come from an eigenvalue solver.", "anchors": ["libdiskpp/include/diskpp/bases/bases_all.hpp: scaled_monomial_abstract_basis", "libdiskpp/include/diskpp/geometry/geometry_all.hpp: diameter_boundingbox"]}
{"id": "C67", "title": "Quadrature on 2D cells of generic meshes", "statement": "For every convex counter-clockwise cell, integrate(msh, cl, degree) returns points and weights that integrate every polynomial of total degree at most the requested degree to about 1e-13 relative to the area and to the size of the polynomial on the cell, or throws when the degree is too high.", "quantifier": "every triangle, convex quadrilateral and convex polygon, every polynomial, degrees up to 38 (quadrilaterals) or 30", "why_tests_cant": "Continuous domain of cells and polynomials; one tensor rule is silently one degree short on some quadrilaterals.", "anchors": ["libdiskpp/include/diskpp/quadratures/bits/quad_phys_generic.hpp: integrate, integrate_convex", "libdiskpp/include/diskpp/quadratures/bits/quad_raw_gauss.hpp: tensorized_gauss_legendre", "libdiskpp/include/diskpp/quadratures/bits/quad_raw_triangle.hpp: triangle_gauss"]}
{"id": "C68", "title": "Triangle rules on faces in space", "statement": "triangle_gauss on a triangle in space integrates every polynomial of the position in the triangle up to the requested degree with respect to the surface measure, its weights sum to the area, and degrees above 30 are refused by an exception.", "quantifier": "every triangle in space, every degree, every polynomial", "why_tests_cant": "Continuous domain; 30 tables of up to 175 points.", "anchors": ["libdiskpp/include/diskpp/quadratures/bits/quad_raw_triangle.hpp: triangle_gauss", "libdiskpp/include/diskpp/common/simplicial_formula.hpp: area_triangle_kahan"]}
{"id": "C69", "title": "Tangent moduli read from the material library act like their matrices", "statement": "For each supported size, the tensor converted from the vector of the tangent maps a strain (symmetric, or full for the unsymmetric layouts) to the stress whose vector is the tangent matrix times the vector of the strain; other sizes are refused by an exception.", "quantifier": "every tangent and every strain, sizes 16, 25, 36, 81", "why_tests_cant": "Continuous inputs; the defects are in single coefficients out of 81.", "anchors": ["libdiskpp/include/diskpp/mechanics/behaviors/tensor_conversion.hpp: convertTensorFromMgis, convertMatrixToMgis", "libdiskpp/include/diskpp/mechanics/behaviors/maths_tensor.hpp: tm_prod"]}
{"id": "C70", "title": "Mandel notation and plane restriction of tensors", "statement": "The 6x6 Mandel matrix of a tensor with minor symmetry acts on Mandel vectors of symmetric matrices like the tensor on the matrices; restricting a 3D tensor to 2D keeps the coefficients with in-plane indices, so it acts on plane matrices like the 3D tensor on their extension by zero.", "quantifier": "every tensor and every matrix", "why_tests_cant": "Continuous inputs and 36 entries.", "anchors": ["libdiskpp/include/diskpp/mechanics/behaviors/tensor_conversion.hpp: convertTensorNotationMangel, convertTensor, convertMatrix, convertMatrix3D"]}
{"id": "C71", "title": "Hierarchies of nested triangle meshes", "statement": "Building a hierarchy with k levels from a conforming triangle mesh gives k+1 conforming meshes; the coarse-to-fine map of each level lists for every triangle the four triangles it is cut into, and every triangle of the next level occurs exactly once. Level l has the same points, triangles and boundary labels as l uniform refinements by the mesher.", "quantifier": "every conforming mesh, any number of levels, any value of the uninitialised members", "why_tests_cant": "Unbounded number of levels; the code keeps broken edges after remove_if, copies uninitialised identifiers and relies on sorted containers.", "anchors": ["libdiskpp/include/diskpp/mesh/mesh_hierarchy.hpp: build_hierarchy, refine, make_coarse_to_fine_map"]}
{"id": "C72", "title": "Locating a point in a hierarchy", "statement": "For a hierarchy built from a conforming mesh without degenerate triangles, locate_point finds every point of the mesh at every level and returns a triangle that contains it; for a point outside it throws.", "quantifier": "every conforming mesh, every point, every level", "why_tests_cant": "Continuous domain: points on edges and vertices must be found through every chain of ancestors.", "anchors": ["libdiskpp/include/diskpp/mesh/mesh_hierarchy.hpp: locate_point, is_inside, build_hierarchy"]}
{"id": "C73", "title": "Every face and cell of a generated mesh has a descriptor", "statement": "In every mesh produced by the mesh generators and by mesh hierarchies, boundary_info and is_boundary answer for every face and domain_info answers for every cell.", "quantifier": "every generated mesh, every refinement level, every face and cell", "why_tests_cant": "Unbounded number of meshes; the missing data only matter when a query reaches them.", "anchors": ["libdiskpp/include/diskpp/mesh/mesh.hpp: domain_info, boundary_info", "libdiskpp/include/diskpp/mesh/meshgen.hpp: simple_mesher, make_single_element_mesh", "libdiskpp/include/diskpp/mesh/mesh_hierarchy.hpp: convert_internal_to_simplicial"]}
{"id": "C74", "title": "Reading poly files terminates with the contents or a refusal", "statement": "Loading a poly2d or poly3d file ends: a complete file is read to exactly its contents, a file with a wrong dimension, an unknown keyword or a missing end marker is refused.", "quantifier": "every list of sections in any order, every length of truncated file", "why_tests_cant": "Unbounded files; the behaviour on a truncated file depends on the last section and on uninitialised variables.", "anchors": ["libdiskpp/include/diskpp/loaders/loader_poly.hpp: poly2d_read, poly3d_read, read_cell_block, read_nodes_block, read_grp_block"]}
{"id": "C75", "title": "The order of the lines of a poly file does not matter", "statement": "Entities of poly files carry numbers. Listing the nodes, edges, faces or volumes of a file in another order gives the same mesh.", "quantifier": "every file and every reordering of each block", "why_tests_cant": "n! orders; generated files are usually listed in order.", "anchors": ["libdiskpp/include/diskpp/loaders/loader_poly.hpp: populate_mesh"]}
{"id": "C76", "title": "The polygons of the hexagonal mesh partition the square", "statement": "For every level of the hexagonal-mesh generator, every polygon is convex and counterclockwise, every point of the square lies in some polygon, and no point lies in the interior of two polygons.", "quantifier": "every refinement level up to 61 and every point with real (or other ordered-field) coordinates", "why_tests_cant": "Uncountably many points and 4^l polygons; overlaps between tiles of different recursive calls cannot be sampled away.", "anchors": ["libdiskpp/include/diskpp/mesh/meshgen_fvca5hex.hpp: hexmesh_work, make_hexmesh"]}
{"id": "C77", "title": "Hexagonal meshes are consistent generic meshes", "statement": "For every level, the hexagonal mesher builds a mesh without throwing: nodes, edges and cells are strictly sorted so that all lookups succeed; the edges of every cell join its consecutive vertices; the cells are the generator's polygons scaled to the unit square; a face is marked as boundary exactly when one cell has it, otherwise exactly two have it, and the mark is the side of the square on which the face lies; every cell has a subdomain.", "quantifier": "every refinement level up to 61, every cell and every face", "why_tests_cant": "The mesh size is exponential in the level and the marks depend on searches in three sorted containers.", "anchors": ["libdiskpp/include/diskpp/mesh/meshgen.hpp: fvca5_hex_mesher::make_level", "libdiskpp/include/diskpp/mesh/meshgen_fvca5hex.hpp: offset"]}
{"id": "C78", "title": "Refined tetrahedral meshes are conforming", "statement": "The tetrahedral mesher and every later call of refine() succeed, and the mesh stays conforming: every edge and face of a tetrahedron is stored once, every face belongs to one tetrahedron if it is marked as boundary and to two otherwise; parts of a face inherit its boundary descriptor, so that every boundary face lies on the side of the cube whose number it carries. The result does not depend on how std::sort orders equal faces.", "quantifier": "every conforming mesh, every number of refinements, every result of the unstable sort", "why_tests_cant": "The number of elements grows by a factor of eight per level; conformity is a statement about all pairs of neighbours.", "anchors": ["libdiskpp/include/diskpp/mesh/meshgen.hpp: simple_mesher<tetrahedral_mesh<T>>"]}
{"id": "C79", "title": "Refinement of tetrahedra preserves volume", "statement": "Each tetrahedron is replaced by eight of an eighth of its volume; after k refinements of the initial mesh all 6*8^k tetrahedra have the same volume and together fill volume one.", "quantifier": "every conforming mesh with arbitrary coordinates, every number of refinements", "why_tests_cant": "Arbitrary coordinates and unbounded levels.", "anchors": ["libdiskpp/include/diskpp/mesh/meshgen.hpp: simple_mesher<tetrahedral_mesh<T>>::refine"]}
{"id": "C80", "title": "Refinement of tetrahedra is shape regular", "statement": "refine() follows Bey's version of Freudenthal's algorithm, whose meshes are shape regular: k refinements of the initial mesh make every edge at most C/2^k long for one constant C, and the volume of a tetrahedron stays comparable to the cube of its longest edge.", "quantifier": "every number of refinements", "why_tests_cant": "The degeneration is slow (a factor 1.15 per level), and the sizes reached by tests do not show it.", "anchors": ["libdiskpp/include/diskpp/mesh/meshgen.hpp: simple_mesher<tetrahedral_mesh<T>>::refine", "libdiskpp/include/diskpp/geometry/element_simplicial.hpp: constructor (sorts the vertices)"]}
{"id": "C81", "title": "Refined tetrahedra partition the cube", "statement": "After any number of refinements the tetrahedra of the mesher cover exactly the unit cube and no two of them have a common inner point.", "quantifier": "every number of refinements, every point with coordinates in an ordered field", "why_tests_cant": "Uncountably many points and 6*8^k tetrahedra.", "anchors": ["libdiskpp/include/diskpp/mesh/meshgen.hpp: simple_mesher<tetrahedral_mesh<T>>"]}
{"id": "C82", "title": "The HHO potential reconstruction solves its defining problem", "statement": "make_scalar_hho_laplacian returns an operator whose result r for unknowns (u_T, u_F) satisfies (D grad r, grad w)_T = (D grad u_T, grad w)_T + sum over faces of (u_F - u_T, D grad w . n)_F for every polynomial w of the reconstruction degree; applied to the interpolate of such a polynomial it returns that polynomial up to a constant; the second matrix is the symmetric positive semidefinite energy of r; face projection changes nothing when the face degree is at least the reconstruction degree minus one; the version with degrees per face solves the same problem.", "quantifier": "every cell and list of faces, every basis, all degrees, every symmetric tensor, all unknowns", "why_tests_cant": "A test sees one cell shape, one degree and one floating-point residual; the identity is for all cells, degrees and unknowns.", "anchors": ["libdiskpp/include/diskpp/methods/implementation_hho/scalar_hho_laplacian.hpp: make_scalar_hho_laplacian"]}
{"id": "C83", "title": "HHO interpolation stores L2 projections", "statement": "project_function returns on the cell and on every face the L2 projection of a polynomial whose degree is covered by the extra quadrature degree di; interpolation followed by reconstruction gives the polynomial back up to a constant.", "quantifier": "every cell, all degrees, every polynomial of degree at most the reconstruction degree, di >= 1", "why_tests_cant": "All polynomials and degrees; with the default di = 0 the quadrature is one degree short, which rounding hides.", "anchors": ["libdiskpp/include/diskpp/methods/implementation_hho/methods_hho.hpp: project_function", "libdiskpp/include/diskpp/methods/implementation_hho/scalar_hho_laplacian.hpp: make_scalar_hho_laplacian"]}
{"id": "C84", "title": "HHO stabilizations penalize the documented differences", "statement": "The bilinear forms of make_scalar_hdg_stabilization, make_scalar_dg_stabilization and make_scalar_hho_stabilization are sums over the faces of (delta v, delta u)_F / h with delta the documented difference: the face projection of u_T - u_F, the difference itself, and the face projection of R u - u_F + u_T - pi_T R u; all are symmetric and positive semidefinite.", "quantifier": "every cell, all degrees, every reconstruction operator, all unknowns", "why_tests_cant": "Statement about all unknowns and all cells; a wrong block offset or a wrong projection can keep convergence on simple tests.", "anchors": ["libdiskpp/include/diskpp/methods/implementation_hho/scalar_stabilization.hpp"]}
{"id": "C85", "title": "The HHO stabilization vanishes on interpolates", "statement": "The matrix of make_scalar_hho_stabilization built from the reconstruction of make_scalar_hho_laplacian maps the interpolate of every polynomial of the reconstruction degree to zero, so on interpolates the local HHO operator has exactly the energy of the reconstruction.", "quantifier": "every cell, every admissible combination of degrees, every polynomial of the reconstruction degree", "why_tests_cant": "The tests of the library check convergence rates of stabilized seminorms, not exact polynomial consistency for all degrees and shapes.", "anchors": ["libdiskpp/include/diskpp/methods/implementation_hho/scalar_stabilization.hpp: make_scalar_hho_stabilization"]}
{"id": "C86", "title": "The scaling flag of the stabilizations selects the diameter", "statement": "With hF = true the stabilizations are scaled by the face diameter, with hF = false by the cell diameter, in every overload.", "quantifier": "every overload, every cell with faces, all unknowns", "why_tests_cant": "Rates do not change when one diameter is replaced by the other on regular meshes.", "anchors": ["libdiskpp/include/diskpp/methods/implementation_hho/scalar_stabilization.hpp: make_scalar_hho_stabilization", "libdiskpp/include/diskpp/methods/implementation_hho/vector_stabilization.hpp: make_vector_hho_stabilization_optim"]}
{"id": "C87", "title": "hho_degree_info enforces its documented constraints", "statement": "Every constructor of hho_degree_info that takes degrees returns cell and face degrees with fd - 1 <= cd <= fd + 1 and a gradient degree at least fd, keeping admissible requests; degree objects for meshes and for cells agree, and changing one face changes exactly the cells with that face.", "quantifier": "all degree triples, all meshes", "why_tests_cant": "Infinitely many triples; the invalid ones are silently accepted.", "anchors": ["libdiskpp/include/diskpp/methods/implementation_hho/utils_hho.hpp: hho_degree_info", "libdiskpp/include/diskpp/adaptivity/adaptivity.hpp: CellDegreeInfo, MeshDegreeInfo"]}
{"id": "C88", "title": "Vector HHO operators act componentwise", "statement": "compute_lhs_vector, compute_grad_vector and compute_grad_matrix turn a scalar operator into the vector operator that applies it to each component: bilinear forms are summed over components, operators are applied component by component.", "quantifier": "every dimension, all degrees per face, faces with or without unknowns, every scalar operator of matching size", "why_tests_cant": "All sizes and entries; index mistakes between components cancel for symmetric data.", "anchors": ["libdiskpp/include/diskpp/methods/implementation_hho/utils_hho.hpp: compute_lhs_vector, compute_grad_vector, compute_grad_matrix"]}
{"id": "C89", "title": "Vector reconstruction for every reconstruction degree", "statement": "make_vector_hho_laplacian with an hho_degree_info gives the componentwise reconstruction whenever make_scalar_hho_laplacian does, in particular after reconstruction_degree(k) or with named arguments.", "quantifier": "every hho_degree_info, every dimension, every cell", "why_tests_cant": "Only non-default reconstruction degrees show it, and without assertions a wrong operator is returned silently.", "anchors": ["libdiskpp/include/diskpp/methods/implementation_hho/vector_hho_laplacian.hpp: make_vector_hho_laplacian", "libdiskpp/include/diskpp/methods/implementation_hho/utils_hho.hpp: compute_grad_vector"]}
{"id": "C90", "title": "Strain and stress measures", "statement": "The conversions of deformation_tensors.hpp and stress_tensors.hpp are the classical ones: convertGtoLinearizedStrain gives (G + G^T)/2, the Green-Lagrange strain measures the change of squared lengths, conversions between PK1, PK2, Kirchhoff and Cauchy stresses are mutually inverse and conjugate in power, and von Mises stress ignores pressure.", "quantifier": "every dimension, every displacement or deformation gradient (invertible where an inverse is taken), every stress", "why_tests_cant": "Identities between matrices of real numbers; small examples such as symmetric gradients hide transposition errors.", "anchors": ["libdiskpp/include/diskpp/mechanics/deformation_tensors.hpp", "libdiskpp/include/diskpp/mechanics/stress_tensors.hpp"]}
{"id": "C91", "title": "Material parameters are consistent", "statement": "Setting Lame parameters from Young's modulus and Poisson's ratio and reading the moduli back gives the original values, hardening moduli likewise, and checkRpCurve accepts exactly the curves whose abscissas differ by at least the tolerance, returning them sorted.", "quantifier": "all real moduli with nonzero denominators, every curve", "why_tests_cant": "All real parameters and all lists of points.", "anchors": ["libdiskpp/include/diskpp/mechanics/behaviors/laws/materialData.hpp"]}
{"id": "C92", "title": "Derivatives of the determinant and of the norm of the deviator", "statement": "computeJacobianFirstDerivate returns the derivative of det F, computeJacobianSecondDerivate the derivative of that, and NormFroFirstDerivate the derivative of the Frobenius norm of the deviatoric part, in dimensions 2 and 3.", "quantifier": "every matrix", "why_tests_cant": "A table of 81 entries with one wrong index agrees with the right one on all symmetric matrices and on many tests.", "anchors": ["libdiskpp/include/diskpp/mechanics/behaviors/maths_jacobian_derivate.hpp", "libdiskpp/include/diskpp/mechanics/behaviors/maths_utils.hpp: NormFroFirstDerivate"]}
{"id": "C93", "title": "Linear elasticity and the linear law", "statement": "LinearElasticityLaw returns Hooke's stress, which derives from the elastic energy, and its derivative, in 3D and in plane strain; LinearLaw returns lambda F with its derivative.", "quantifier": "every strain, all parameters", "why_tests_cant": "Infinitely many strains and parameters.", "anchors": ["libdiskpp/include/diskpp/mechanics/behaviors/laws/LinearElasticityLaw/LinearElasticityLaw.hpp", "libdiskpp/include/diskpp/mechanics/behaviors/laws/law_qp_bones.hpp"]}
{"id": "C94", "title": "Return mapping of linear isotropic and kinematic hardening", "statement": "After any history of evaluations and updates, evaluating the law does not throw and the new elastic strain, plastic strain and cumulated plastic strain are the only solution of the implicit Euler step (additive split, yield condition, consistency, associated flow) with linear isotropic and kinematic hardening; repeated evaluations without update do not accumulate.", "quantifier": "every history of strains and updates, 3D and plane strain, all parameters with mu, sigma_y0 > 0 and H, K >= 0", "why_tests_cant": "All histories; an error in the kinematic term appears only after unloading.", "anchors": ["libdiskpp/include/diskpp/mechanics/behaviors/laws/LinearIsotropicAndKinematicHardening/LinearIsotropicAndKinematicHardening_qp.hpp"]}
{"id": "C95", "title": "Consistent tangent moduli of the plastic laws", "statement": "Away from the yield surface (and from the corners of the hardening curve) the tangent returned by the plastic laws is the derivative of the returned stress with respect to the strain, for all symmetric strain rates, in 3D and in plane strain.", "quantifier": "every reachable state, every strain off the yield surface", "why_tests_cant": "A wrong tangent only slows Newton's method down; no test compares it with the derivative for all strains.", "anchors": ["libdiskpp/include/diskpp/mechanics/behaviors/laws/LinearIsotropicAndKinematicHardening/LinearIsotropicAndKinematicHardening_qp.hpp", "libdiskpp/include/diskpp/mechanics/behaviors/laws/IsotropicHardeningVMis/IsotropicHardeningVMis_qp.hpp"]}
{"id": "C96", "title": "Return mapping with a hardening curve", "statement": "With any hardening curve accepted by checkRpCurve (softening weaker than 3 mu, positive yield stress), after any history, IsotropicHardeningVMis does not throw and returns the only solution of the implicit Euler step for the yield stress interpolated linearly between the points of the curve and extrapolated beyond the last one.", "quantifier": "every curve, every history of strains and updates, 3D and plane strain", "why_tests_cant": "All curves and histories; the two index searches have corner cases at the ends of the curve.", "anchors": ["libdiskpp/include/diskpp/mechanics/behaviors/laws/IsotropicHardeningVMis/IsotropicHardeningVMis_qp.hpp"]}
{"id": "C97", "title": "Hencky-Mises material", "statement": "The Hencky-Mises law is hyperelastic: the stress derives from a stored energy, is strongly monotone, and the modulus returned with it is its derivative.", "quantifier": "every strain, all parameters with mu > 0", "why_tests_cant": "Existence of a potential cannot be tested on finitely many strains.", "anchors": ["libdiskpp/include/diskpp/mechanics/behaviors/laws/HenckyMises/HenckyMises_qp.hpp"]}
{"id": "C98", "title": "Neo-Hookean material", "statement": "For each of the six documented volumetric functions and every deformation gradient with positive determinant, Neohookean_qp returns a first Piola-Kirchhoff stress that is the derivative of the documented stored energy, the derivative of that stress as tangent, and a symmetric Kirchhoff stress; compute_energy returns the documented energy; the law does not depend on the observer and carries no stress in the undeformed state; inverted deformations and unknown types are refused.", "quantifier": "every deformation gradient with positive determinant, all parameters, all six types, 3D and plane strain", "why_tests_cant": "Derivatives over a nine dimensional domain, for six functions; a wrong energy is never compared with the stress.", "anchors": ["libdiskpp/include/diskpp/mechanics/behaviors/laws/Neohookean/Neohookean_qp.hpp"]}
{"id": "C99", "title": "Cavitation material", "statement": "For each of the six volumetric functions and every deformation gradient with positive determinant, Cavitation_qp returns the derivative of the documented stored energy as stress and the derivative of the stress as tangent; compute_energy returns that energy; the law does not depend on the observer and carries no stress in the undeformed state.", "quantifier": "every deformation gradient with positive determinant, all parameters, all six types, 3D and plane strain", "why_tests_cant": "Derivatives over a nine dimensional domain; fractional powers.", "anchors": ["libdiskpp/include/diskpp/mechanics/behaviors/laws/Cavitation/Cavitation_qp.hpp"]}
{"id": "C100", "title": "Coefficients of the logarithmic strain", "statement": "For positive eigenvalues in increasing order, compute_coefficient returns the first and second divided differences of log(x)/2, with derivatives where eigenvalues coincide.", "quantifier": "every triple of positive increasing eigenvalues, coinciding or well separated", "why_tests_cant": "Coinciding eigenvalues form a null set that random tests do not hit; symmetric examples do.", "anchors": ["libdiskpp/include/diskpp/mechanics/behaviors/logarithmic_strain/logarithmic_tools.hpp"]}
{"id": "C101", "title": "Stress of the logarithmic strain framework", "statement": "For every deformation gradient with determinant above the bound, the strain passed to the small strain law is the symmetric E with exp(2E) = F^T F, and the returned first Piola-Kirchhoff stress is the one conjugate to it: same power along every path as the stress of the small strain law, and the derivative of W(E(F)) if that law derives from W. The result does not depend on the choice of eigenvectors or on the observer.", "quantifier": "every deformation gradient, every choice of eigenvectors, every small strain law", "why_tests_cant": "Eigenvectors of repeated eigenvalues are arbitrary and jump along paths; tests use isotropic laws.", "anchors": ["libdiskpp/include/diskpp/mechanics/behaviors/logarithmic_strain/logarithmic_tools.hpp", "libdiskpp/include/diskpp/mechanics/behaviors/logarithmic_strain/LogarithmicStrain_qp.hpp"]}
{"id": "C102", "title": "Tangent of the logarithmic strain framework", "statement": "If the small strain law returns its derivative as (symmetric) tangent, the tangent returned by LogarithmicStrain_qp is the derivative of the first Piola-Kirchhoff stress with respect to the deformation gradient.", "quantifier": "every deformation gradient, every choice of eigenvectors, every differentiable small strain law, 3D and plane strain", "why_tests_cant": "Second derivatives of a matrix logarithm with repeated eigenvalues; a wrong tangent only slows Newton's method down.", "anchors": ["libdiskpp/include/diskpp/mechanics/behaviors/logarithmic_strain/logarithmic_tools.hpp", "libdiskpp/include/diskpp/mechanics/behaviors/logarithmic_strain/LogarithmicStrain_qp.hpp", "libdiskpp/include/diskpp/mechanics/behaviors/tensor_conversion.hpp"]}
{"id": "C103", "title": "First-order basis on triangles", "statement": "On every triangle with nonzero area, of either orientation, cfem::eval_basis returns the barycentric coordinates of the point (the only affine functions that are 1 at one vertex and 0 at the others), and eval_basis_grad their gradients.", "quantifier": "every triangle of nonzero area and every point", "why_tests_cant": "Orientation and position of the triangle vary continuously; tests use a reference triangle.", "anchors": ["libdiskpp/include/diskpp/cfem/cfem.hpp"]}
{"id": "C104", "title": "First-order element matrices", "statement": "mass_matrix and stiffness_matrix (with or without a tensor, also not symmetric) return the exact integrals of products of affine functions and of their gradients over the triangle; make_rhs returns the exact moments of a constant datum, and for an affine datum the exact total, each entry being off by a twelfth of the area times the deviation of the vertex value from the mean.", "quantifier": "every triangle of nonzero area, every tensor, every pair of affine functions", "why_tests_cant": "Exactness is an identity over all triangles and functions; convergence tests would not see a small constant factor on one entry.", "anchors": ["libdiskpp/include/diskpp/cfem/cfem.hpp"]}
{"id": "C105", "title": "Reading Newton parameters", "statement": "readParameters returns for every file: on a complete file it returns true and the parameters are the previous ones with every line applied in order; otherwise it returns false.", "quantifier": "every sequence of settings and every file, complete or cut", "why_tests_cant": "Truncated and malformed files are rarely tested, and a test that does not terminate gives no verdict.", "anchors": ["libdiskpp/include/diskpp/mechanics/NewtonSolver/NewtonSolverParameters.hpp"]}
{"id": "C106", "title": "Configuration of the Newton solver", "statement": "What is set by the setters of the parameters is returned by the getters; the solver works with a cell degree within one of the face degree, a gradient degree at least the face degree and a quadrature exact for products of gradients; every stabilization that a parameters file can name is assembled.", "quantifier": "all integer degrees and all settings of the stabilization", "why_tests_cant": "Invalid degrees are corrected silently; the combination of corrected and uncorrected values is not tested.", "anchors": ["libdiskpp/include/diskpp/mechanics/NewtonSolver/NewtonSolverParameters.hpp", "libdiskpp/include/diskpp/mechanics/NewtonSolver/NewtonSolver.hpp", "libdiskpp/include/diskpp/mechanics/NewtonSolver/NewtonSolverComput.hpp"]}
{"id": "C107", "title": "Newton step", "statement": "NewtonStep::compute does at most m_iter_max iterations and does not throw; if it reports convergence, the stored solution has an increment and a residual of at most m_epsilon relative to displacement and internal forces; if not, the stored solution is unchanged.", "quantifier": "every assembly, solver and sequence of norms, including infinite and NaN", "why_tests_cant": "Depends on what the iteration object does, including NaN and exceptions, which tests on well-posed problems do not produce.", "anchors": ["libdiskpp/include/diskpp/mechanics/NewtonSolver/NewtonStep.hpp", "libdiskpp/include/diskpp/mechanics/NewtonSolver/NewtonIteration.hpp"]}
{"id": "C108", "title": "Newmark scheme", "statement": "After a time step of the unsteady solver the velocity and acceleration are those of Newmark's scheme for the computed displacement, and the inertia in the linear systems is the mass times that acceleration.", "quantifier": "every beta, gamma, time step, initial motion and sequence of Newton increments", "why_tests_cant": "A wrong scheme still moves the body in a plausible way; only the relation between displacement, velocity and acceleration shows the error.", "anchors": ["libdiskpp/include/diskpp/mechanics/NewtonSolver/NewtonIteration.hpp", "libdiskpp/include/diskpp/mechanics/NewtonSolver/NewtonSolverComput.hpp"]}
{"id": "C109", "title": "Time loop of the Newton solver", "statement": "NewtonSolver::compute ends after at most n(2^(m_sublevel+1) - 1) Newton steps; the accepted steps follow each other from 0 and reach the end time unless the solver gives up; the stored solution is that of the last accepted step; every save time reached is saved with the solution of the first accepted step that reaches it.", "quantifier": "every pattern of convergence and failure, every number of steps and sublevels, every list of save times", "why_tests_cant": "The patterns of failures form a tree of exponential size.", "anchors": ["libdiskpp/include/diskpp/mechanics/NewtonSolver/NewtonSolver.hpp", "libdiskpp/include/diskpp/mechanics/NewtonSolver/TimeManager.hpp"]}
{"id": "C110", "title": "Local matrix and forces of the Newton solver", "statement": "At every state, the local internal forces are the virtual work of the stress (F.v is the sum over the quadrature points of w stress : E(v)), the local tangent matrix is the bilinear form of the tangent modulus (v.K w is the sum of w E(v) : C : E(w)) and is symmetric, and the assembled local matrix, with stabilization and inertia, is exactly minus the derivative of the local right-hand side with respect to the unknowns.", "quantifier": "all dimensions 2 and 3, small and finite deformations, degrees, quadratures, reconstructions, unknowns and behaviors with symmetric tangent", "why_tests_cant": "the triangular loops, the factors of the off-diagonal entries and the mirrored half are only correct jointly with the layout of the matrix basis; a converging Newton run does not show that the linearization is exact", "anchors": ["libdiskpp/include/diskpp/mechanics/NewtonSolver/NewtonSolverComput.hpp:76-99", "libdiskpp/include/diskpp/mechanics/NewtonSolver/NewtonSolverComput.hpp:134-276", "libdiskpp/include/diskpp/mechanics/NewtonSolver/NewtonSolverComput.hpp:405-550", "libdiskpp/include/diskpp/mechanics/NewtonSolver/NewtonIteration.hpp:237-336", "libdiskpp/include/diskpp/bases/bases_matrix.hpp:309-421"]}
{"id": "C111", "title": "Adaptive stabilization coefficient", "statement": "The adapted coefficient of a cell lies in the documented range [beta/1000, 1000 beta] and is the common ratio of stress and strain where there is one; it does not change during the iterations of a step or with a rejected step, and update makes the last value written for a cell the current one; a value set with setValue persists.", "quantifier": "all weights, stresses, strains, coefficients and sequences of operations of the manager", "why_tests_cant": "a run shows a few coefficients, and never all sequences of writes and updates", "anchors": ["libdiskpp/include/diskpp/mechanics/NewtonSolver/NewtonSolverComput.hpp:456-497", "libdiskpp/include/diskpp/mechanics/NewtonSolver/StabilizationManager.hpp:83-132", "libdiskpp/include/diskpp/mechanics/NewtonSolver/NewtonSolver.hpp:605-612"]}
{"id": "C112", "title": "Operators of the new scalar HHO interface: reconstruction and reduction", "statement": "local_operator returns the documented reconstruction and its energy (the same as the operator of the old interface), reproduces polynomials of the reconstruction degree from their interpolates, and local_reduction followed by the reconstruction is the identity on these polynomials, for every degree_info.", "quantifier": "all cells and faces with exact rules of the requested degrees, all bases, degrees and unknowns", "why_tests_cant": "a convergence test runs one mesh family with equal degrees; it would not notice a projection that is inexact only for the cell degree below the face degree", "anchors": ["libdiskpp/include/diskpp/methods/hho_slapl.hpp:33-105", "libdiskpp/include/diskpp/methods/hho_slapl.hpp:211-237", "libdiskpp/include/diskpp/bases/bases_new.hpp:908-945", "libdiskpp/include/diskpp/bases/bases_operations.hpp:326-336"]}
{"id": "C113", "title": "Stabilizations of the new scalar HHO interface", "statement": "local_stabilization penalizes on every face the projected defect of the reconstruction, divided by the diameter; it is symmetric, positive semidefinite and vanishes on interpolates of polynomials of the reconstruction degree. local_stabilization_hdg penalizes the projected difference of cell and face unknowns with the same scaling as the old interface.", "quantifier": "all cells, faces, bases, degrees, reconstructions and unknowns", "why_tests_cant": "a wrong power of the diameter changes only the rate on refined meshes, and is invisible on a mesh of unit size", "anchors": ["libdiskpp/include/diskpp/methods/hho_slapl.hpp:107-209"]}
{"id": "C114", "title": "Incidence matrices, normals and dual edges of the discrete geometric approach", "statement": "On every tetrahedron curl_matrix times grad_matrix vanishes and every element of the kernel of curl_matrix is a gradient; grad_matrix gives the circulations of the gradient of an affine function, and curl_matrix applied to the circulations of an affine field the fluxes of its curl through the primal faces. normals(mesh, vol) are unit outward normals, and normals(mesh, surf) unit outward normals of the edges in the plane of the triangle. dual_edge_vectors(mesh, surf, vol) are such that cross(pev, dev) points outward, as its comment says, and the function throws for a triangle that is no face of the volume.", "quantifier": "all nondegenerate tetrahedra and triangles, all numberings of the points", "why_tests_cant": "the tests check three fixed tetrahedra; orientations depend on the numbering of the points", "anchors": ["libdiskpp/include/diskpp/methods/implementation_dga/methods_dga.hpp:304-341", "libdiskpp/include/diskpp/methods/implementation_dga/methods_dga.hpp:566-659"]}
{"id": "C115", "title": "Duality of primal and dual vectors of the discrete geometric approach", "statement": "On every tetrahedron of either orientation each primal edge vector has product |V|/2 with its dual area vector and each primal area vector 3|V|/4 with its dual edge vector; over all edges, and over all faces, the products of two constant fields add up to |V| times their scalar product; the dual areas of the edges at a point close with a third of the opposite face.", "quantifier": "all tetrahedra, of both orientations, and all constant fields", "why_tests_cant": "the identities mix cross products of barycentres whose signs depend on the orientation of the cell", "anchors": ["libdiskpp/include/diskpp/methods/implementation_dga/methods_dga.hpp:237-424"]}
{"id": "C116", "title": "Constitutive matrices of the discrete geometric approach", "statement": "edge_matrix maps the circulations of a constant field to the fluxes of its image through the dual faces, and face_matrix fluxes through primal faces to circulations along dual edges, for every scalar and every tensor; with positive definite symmetric parameters the matrices are symmetric and positive definite. The local matrix of diffusion_dga is the stiffness matrix of first-order finite elements, the one of maxwell_dga has the exact curl energy on affine fields and the exact mass on constant fields, and the field recovered by maxwell_dga from the circulations of a constant field is that field.", "quantifier": "all nondegenerate tetrahedra, scalars, tensors, fields and unknowns", "why_tests_cant": "the tests compare with three matrices computed by an earlier code", "anchors": ["libdiskpp/include/diskpp/methods/implementation_dga/methods_dga.hpp:666-816", "apps/diffusion/src/diffusion_dga.cpp:122-126", "apps/maxwell/src/maxwell_dga.cpp:106-111", "apps/maxwell/src/maxwell_dga.cpp:179-187"]}
{"id": "C117", "title": "Gradient reconstruction", "statement": "make_vector_hho_gradrec and make_vector_hho_gradrec with a material tensor return the documented gradient G: (G u, t)_T = (grad u_T, t)_T + sum over the faces of (u_F - u_T, t.n)_F for every t of the space, for every CellDegreeInfo; on interpolates it is the projection of the gradient and reproduces gradients of the space; data is the energy (G u, G v), with the tensor (K G u, G v), nonnegative for positive tensors.", "quantifier": "all cells and faces with exact rules of the requested degrees, all bases, degrees and unknowns, including faces without unknowns", "why_tests_cant": "convergence tests use faces that all carry unknowns; a face without unknowns appears only with special degree information", "anchors": ["libdiskpp/include/diskpp/methods/implementation_hho/vector_hho_gradrec.hpp", "libdiskpp/include/diskpp/bases/bases_vector.hpp"]}
{"id": "C118", "title": "Divergence reconstruction", "statement": "make_hho_divergence_reconstruction returns D with (D u, q)_T = -(u_T, grad q)_T + sum over the faces of (u_F.n, q)_F; D is the trace of the gradients reconstructed from the components, commutes with interpolation (so divergence-free fields of the space have zero divergence) and data is the energy (D u, D v).", "quantifier": "all cells, faces, bases, degrees and unknowns", "why_tests_cant": "the identity with the gradient couples two functions that are never compared by a test", "anchors": ["libdiskpp/include/diskpp/methods/implementation_hho/scalar_hho_divrec.hpp"]}
{"id": "C119", "title": "Symmetric gradient reconstruction", "statement": "make_matrix_hho_symmetric_gradrec returns E with (E u, t)_T = (sym grad u_T, t)_T + sum over the faces of (u_F - u_T, t n)_F for every symmetric t of the space; the mass matrix, of which the code computes only some entries, is the complete one; E is the symmetric part of the gradients reconstructed from the components, commutes with interpolation and so vanishes on rigid motions; data is the energy (E u, E v).", "quantifier": "dimensions 2 and 3, all cells, faces, bases, degrees and unknowns", "why_tests_cant": "the skipped entries and the factors of the off-diagonal basis tensors are only correct jointly", "anchors": ["libdiskpp/include/diskpp/methods/implementation_hho/matrix_hho_gradrec.hpp", "libdiskpp/include/diskpp/bases/bases_matrix.hpp"]}
{"id": "C120", "title": "Curl reconstruction in the polynomials", "statement": "curl_reconstruction_pk returns C with (C u, t)_T = (curl u_T, t)_T + sum over the faces of (u_F - u_T, t x n)_F for every polynomial field t of the reconstruction degree; on tangential interpolates it is the projection of the curl and reproduces the curls of the space; data is the energy (C u, C v). This holds for all degrees accepted by hho_degree_info.", "quantifier": "all cells, faces, exact rules of the requested degrees, bases, tangential frames, degrees and unknowns", "why_tests_cant": "the rules have degrees chosen from the cell degree; only combinations of degrees other than the usual ones make them insufficient", "anchors": ["libdiskpp/include/diskpp/methods/implementation_hho/curl.hpp:420-485", "libdiskpp/include/diskpp/bases/bases_vector.hpp"]}
{"id": "C121", "title": "Curl reconstruction by potentials", "statement": "curl_reconstruction in 3D, which solves a singular system by FullPivLU, returns R with (curl R u, curl t)_T = (curl u_T, curl t)_T + sum over the faces of (u_F - u_T, curl t x n)_F for every t of the reconstruction space; on tangential interpolates curl R u is the elliptic projection of the field; data is the energy (curl R u, curl R v). In 2D oper and data are those of make_scalar_hho_laplacian.", "quantifier": "all cells, faces, bases, frames and unknowns; degrees with cell degree at most the reconstruction degree", "why_tests_cant": "solvability of the singular system for every right-hand side is not observable from examples", "anchors": ["libdiskpp/include/diskpp/methods/implementation_hho/curl.hpp:229-370", "libdiskpp/include/diskpp/bases/bases_scalar.hpp:289-302"]}
{"id": "C122", "title": "Stabilizations and mass operator of the Maxwell methods", "statement": "curl_hdg_stabilization in 3D is the sum over the faces of the products of the tangential projections of u_F - u_T, without scaling by a diameter; it is symmetric and positive semidefinite and vanishes when u_F is the tangential projection of u_T. In 2D it is make_scalar_hdg_stabilization scaled by the diameters of the faces. make_vector_mass_oper is the product of the cell unknowns.", "quantifier": "all cells, faces, bases, frames, degrees and unknowns", "why_tests_cant": "the tests look at errors of discrete solutions, not at the bilinear forms", "anchors": ["libdiskpp/include/diskpp/methods/implementation_hho/curl.hpp:80-113", "libdiskpp/include/diskpp/methods/implementation_hho/curl.hpp:652-783"]}
{"id": "C123", "title": "Tangential interpolation", "statement": "project_tangent and maxwell_prj return the unknowns of the tangential interpolate: the projections of the field on the cell and of its tangential part on every face.", "quantifier": "all cells, faces, frames, degrees and polynomial fields of the degrees for which the rules are exact", "why_tests_cant": "maxwell_prj is used by no application; it agrees with project_tangent on constant fields", "anchors": ["libdiskpp/include/diskpp/methods/implementation_hho/methods_hho.hpp:174-212", "libdiskpp/include/diskpp/methods/implementation_hho/curl.hpp:372-418"]}
{"id": "C124", "title": "Numbering of unknowns with conditions on single components", "statement": "assembler_mechanics, vector_primal_hho_assembler and vector_mechanics_hho_assembler number the face coefficients that no Dirichlet condition (all components, clamped, or some of x, y, z) prescribes consecutively, without gaps or repetitions, and the local numbering of a cell sends each coefficient to its number or marks it as eliminated.", "quantifier": "dimension 2 and 3, all face degrees, all assignments of Dirichlet and contact types to faces, all cells", "why_tests_cant": "the types DY, DZ, DXDZ, DYDZ and mixtures of them with contact are set by no test", "anchors": ["libdiskpp/include/diskpp/methods/implementation_hho/assembler_hho.hpp:1287-1294", "libdiskpp/include/diskpp/methods/implementation_hho/assembler_hho.hpp:1320-1508", "libdiskpp/include/diskpp/methods/implementation_hho/assembler_hho.hpp:2824-2893", "libdiskpp/include/diskpp/methods/implementation_hho/assembler_hho.hpp:2957-3133", "libdiskpp/include/diskpp/methods/implementation_hho/assembler_hho.hpp:4313-4382"]}
{"id": "C125", "title": "Elimination of prescribed components", "statement": "After assembling all cells, the residual of the system at the row of a free coefficient is the sum over the cells of the local residuals, evaluated with the prescribed values at the eliminated coefficients (the increment to the prescribed values in the nonlinear version).", "quantifier": "dimension 2 and 3, all boundary types, local matrices, right-hand sides, boundary values and unknowns", "why_tests_cant": "errors vanish for homogeneous conditions or when only complete faces are prescribed", "anchors": ["libdiskpp/include/diskpp/methods/implementation_hho/assembler_hho.hpp:1306-1565", "libdiskpp/include/diskpp/methods/implementation_hho/assembler_hho.hpp:2932-3170", "libdiskpp/include/diskpp/methods/implementation_hho/assembler_hho.hpp:3380-3625", "libdiskpp/include/diskpp/methods/implementation_hho/assembler_hho.hpp:4080-4300"]}
{"id": "C126", "title": "Expansion of solutions with prescribed components", "statement": "take_local_data, take_local_solution_nonlinear and expand_solution return at each prescribed coefficient the prescribed value (zero if clamped) and at each free coefficient the unknown with its number; in the nonlinear version the current value plus the result is the boundary value. The expanded solution of the assembled system makes the sum of the local residuals vanish at all free coefficients.", "quantifier": "dimension 2 and 3, all boundary types, cells, solutions and boundary values", "why_tests_cant": "a test compares one norm for one assignment of the types", "anchors": ["libdiskpp/include/diskpp/methods/implementation_hho/assembler_hho.hpp:1576-1822", "libdiskpp/include/diskpp/methods/implementation_hho/assembler_hho.hpp:2100-2225", "libdiskpp/include/diskpp/methods/implementation_hho/assembler_hho.hpp:3646-3805"]}
{"id": "C127", "title": "Neumann conditions next to prescribed components", "statement": "impose_neumann_boundary_conditions adds to the row of each free coefficient of a Neumann face the Neumann term of this coefficient and changes nothing else.", "quantifier": "dimension 2 and 3, all face degrees and assignments of Dirichlet and Neumann types, all data and previous right-hand sides", "why_tests_cant": "faces that are both Dirichlet (in some components) and Neumann occur in no test", "anchors": ["libdiskpp/include/diskpp/methods/implementation_hho/assembler_hho.hpp:2229-2347", "libdiskpp/include/diskpp/methods/implementation_hho/assembler_hho.hpp:3807-3925", "libdiskpp/include/diskpp/methods/implementation_hho/assembler_hho.hpp:4650-4765"]}
{"id": "C128", "title": "Assembly of the Stokes system", "statement": "stokes_assembler numbers the velocities of the cells, of the faces without Dirichlet condition, the pressures and the multiplier by 0 .. system_size-1. After assembling all cells, the residual at each row is the sum over the cells of the residuals of the local systems [[A,B^T,0],[B,0,m],[0,m^T,0]], with the boundary values (zero if clamped) at the prescribed coefficients; stokes_assembler_alg gives the same system as assemble_alg.", "quantifier": "all dimensions, sizes of the bases, meshes, boundary types, local matrices, loads and unknowns", "why_tests_cant": "the examples use one boundary type and compare with one exact solution", "anchors": ["libdiskpp/include/diskpp/methods/implementation_hho/assembler_hho.hpp:531-930", "libdiskpp/include/diskpp/methods/implementation_hho/assembler_hho.hpp:932-1250"]}
{"id": "C129", "title": "Velocity and pressure of a Stokes solution", "statement": "take_velocity and take_pressure return the unknowns with the numbers of the cell and the boundary values at prescribed faces. For a solution of the assembled system these values satisfy the local momentum balance at every unknown velocity, B v + lambda m = 0 in every cell, and the mean value of the pressure is zero.", "quantifier": "all meshes, Dirichlet faces, local matrices, boundary functions and solutions", "why_tests_cant": "the difference between the eliminated and the returned boundary values is of the order of the discretization error", "anchors": ["libdiskpp/include/diskpp/methods/implementation_hho/assembler_hho.hpp:640-930", "libdiskpp/include/diskpp/methods/implementation_hho/assembler_hho.hpp:1033-1250"]}
{"id": "C130", "title": "Scalar system with Dirichlet, Neumann and Robin conditions", "statement": "Construct scalar_primal_hho_assembler (or diffusion_condensed_assembler with a boundary object) for any history of boundary calls, assemble all cells, impose the Neumann and Robin conditions and finalize: the residual at each unknown is the sum of the local residuals with the projected Dirichlet values, minus the Neumann term on Neumann faces, plus mass times trace minus the Robin term on Robin faces. Faces with two conditions are refused with an exception.", "quantifier": "all meshes, histories of boundary calls, face degrees, local systems, boundary data and unknowns", "why_tests_cant": "tests impose one kind of condition, each boundary once", "anchors": ["libdiskpp/include/diskpp/methods/implementation_hho/assembler_hho.hpp:2370-2705", "libdiskpp/include/diskpp/methods/implementation_hho/assembler_hho.hpp:283-394"]}
{"id": "C131", "title": "Solution of the scalar system", "statement": "take_local_solution and expand_solution return the unknowns with the numbers of the face, and the projected boundary function on Dirichlet faces; a vector solves the assembled system exactly if these values make all residuals of C130 vanish.", "quantifier": "all meshes, boundary objects, local systems and solution vectors", "why_tests_cant": "a test sees one norm of the difference to an exact solution", "anchors": ["libdiskpp/include/diskpp/methods/implementation_hho/assembler_hho.hpp:2521-2583"]}
{"id": "C132", "title": "Choice of the material law and counts of quadrature points", "statement": "A Behavior is constructed exactly for the compatible pairs of deformation measure and law (SMALL_DEF with ELASTIC, LINEAR_HARDENING, NONLINEAR_HARDENING, HENCKY_MISES; F_DEF with NEOHOKEAN, CAVITATION; LOGARITHMIC_DEF with the first three), otherwise std::invalid_argument is thrown; different pairs use different laws. numberOfQP() is the sum of numberOfQP(cell), which is the size of the rule of the cell, quadrature_point(cell, qp) is that point of the rule at any time, a cell number that does not exist throws, and without a mesh there are no points.", "quantifier": "all values of the two parameters, all meshes and rules, all sequences of calls", "why_tests_cant": "the applications construct four of the pairs, always with a mesh, and no test reads the counts", "anchors": ["libdiskpp/include/diskpp/mechanics/behaviors/laws/behaviorlaws.hpp:121-199", "libdiskpp/include/diskpp/mechanics/behaviors/laws/behaviorlaws.hpp:309-381", "libdiskpp/include/diskpp/mechanics/behaviors/laws/law_bones.hpp:58-119", "libdiskpp/include/diskpp/mechanics/behaviors/laws/law_cell_bones.hpp:63-120"]}
{"id": "C133", "title": "State of the quadrature points", "statement": "compute_whole(cell, qp, strain) changes only the state of this point. Stress and tangent it returns are determined by the strain and by the strains accepted before at this point, that is for each update() the last strain evaluated before it: evaluations that were not followed by an update, also those that threw, have no influence.", "quantifier": "all laws in 2D and 3D, all material data, all interleavings of evaluations at all points and updates in which the accepted evaluations succeeded", "why_tests_cant": "a leak between Newton iterations or between points changes the result of a nonlinear computation slightly; tests compare converged displacements with a tolerance", "anchors": ["libdiskpp/include/diskpp/mechanics/behaviors/laws/behaviorlaws.hpp:383-470", "libdiskpp/include/diskpp/mechanics/behaviors/laws/law_bones.hpp:94-113", "libdiskpp/include/diskpp/mechanics/behaviors/laws/LinearIsotropicAndKinematicHardening/LinearIsotropicAndKinematicHardening_qp.hpp:154-252", "libdiskpp/include/diskpp/mechanics/behaviors/laws/IsotropicHardeningVMis/IsotropicHardeningVMis_qp.hpp:177-305", "libdiskpp/include/diskpp/mechanics/behaviors/logarithmic_strain/LogarithmicStrain_qp.hpp:140-230"]}
{"id": "C134", "title": "Stress read back", "statement": "compute_stress3D at a quadrature point returns the stress of the last successful evaluation there (its in-plane block in 2D), before and after update(); before the first evaluation it is the stress of the undeformed body.", "quantifier": "all laws in 2D and 3D, all strains, all material data", "why_tests_cant": "the stress is only read for output files, which no test compares", "anchors": ["libdiskpp/include/diskpp/mechanics/behaviors/laws/HenckyMises/HenckyMises_qp.hpp:99-134", "libdiskpp/include/diskpp/mechanics/behaviors/laws/Neohookean/Neohookean_qp.hpp:158-225", "libdiskpp/include/diskpp/mechanics/behaviors/laws/Cavitation/Cavitation_qp.hpp:165-240", "libdiskpp/include/diskpp/mechanics/behaviors/laws/LinearElasticityLaw/LinearElasticityLaw.hpp:59-108"]}
{"id": "C135", "title": "Solver and material state", "statement": "A Newton step that does not converge leaves the displacement and what the law has accepted as they were, so the retries with smaller steps give the same result as if it had not been tried. When compute of the Newton solver ends, the state of each quadrature point is the one belonging to the displacement that is reported.", "quantifier": "all laws, all problems (strain, residual and update as arbitrary functions), all lists of time steps and levels", "why_tests_cant": "needs runs in which steps fail and are split; the tests converge directly", "anchors": ["libdiskpp/include/diskpp/mechanics/NewtonSolver/NewtonStep.hpp:144-222", "libdiskpp/include/diskpp/mechanics/NewtonSolver/NewtonSolver.hpp:544-640"]}
{"id": "C136", "title": "Two-dimensional Netgen files", "statement": "load_mesh_netgen of a file with points, triangles and boundary edges returns true and a mesh with the points of the file in their order, one triangle per triple of corners and one edge per pair of corners of a triangle, in increasing order; exactly the listed edges are boundary edges, with the listed number, those between two triangles being internal; domain_info of a triangle is the number in the file.", "quantifier": "all texts of well-formed files, any number formats of the coordinates, anything behind the last line", "why_tests_cant": "the meshes in use have one subdomain and no interfaces", "anchors": ["libdiskpp/include/diskpp/loaders/loader_netgen.hpp:46-310", "libdiskpp/include/diskpp/loaders/loader.hpp:103-129", "libdiskpp/include/diskpp/loaders/strtot.hpp:69-99"]}
{"id": "C137", "title": "Three-dimensional Netgen files", "statement": "load_mesh_netgen of a file with points, tetrahedra and boundary triangles, at most two tetrahedra at each triangle, returns true and a mesh with these points and tetrahedra and with their edges and faces, each once and in increasing order; exactly the listed faces are boundary faces, with the number listed last, and internal exactly if two tetrahedra share them; domain_info of a tetrahedron is its number in the file although the tetrahedra are sorted.", "quantifier": "all texts of well-formed files, any result std::sort may give", "why_tests_cant": "a permutation of the subdomain numbers shows only with several materials in an unordered file", "anchors": ["libdiskpp/include/diskpp/loaders/loader_netgen.hpp:312-545", "libdiskpp/include/diskpp/loaders/loader.hpp:103-137"]}
{"id": "C138", "title": "Files that are not meshes are refused", "statement": "The Netgen and Cartesian loaders return false or throw when there is no such file, the file ends early, a line refers to a point that does not exist, a boundary element belongs to no cell, or three cells share a face; in no case is the behaviour undefined.", "quantifier": "all four loaders, all texts of the stated kinds", "why_tests_cant": "tests load valid files only", "anchors": ["libdiskpp/include/diskpp/loaders/loader.hpp:103-153", "libdiskpp/include/diskpp/common/mapped_file.h: mapped_file", "libdiskpp/include/diskpp/loaders/loader_netgen.hpp:275-285", "libdiskpp/include/diskpp/loaders/loader_cartesian.hpp:318-329", "libdiskpp/include/diskpp/loaders/loader_cartesian.hpp:374-375"]}
{"id": "C139", "title": "Cartesian mesh files", "statement": "load_mesh_diskpp_cartesian returns true and a mesh with the points and the quadrangles or hexahedra of the file, whose edges join corners that differ in one bit of their index and whose faces run around the sides; faces(msh, cl) are found in the mesh, hexahedra that agree on a side share its face, the listed faces are the boundary faces, and domain_info of a cell is 0.", "quantifier": "all texts of well-formed files, dimension 2 and 3, either direction of the boundary edges", "why_tests_cant": "the shipped files list the edges in one direction and nothing reads the subdomains", "anchors": ["libdiskpp/include/diskpp/loaders/loader_cartesian.hpp:40-557", "libdiskpp/include/diskpp/loaders/loader.hpp:139-153", "libdiskpp/include/diskpp/geometry/geometry_hexahedral.hpp:141-187", "libdiskpp/include/diskpp/mesh/mesh.hpp:583-588"]}
{"id": "C140", "title": "Refinement of Cartesian meshes of the unit square", "statement": "The mesher of cartesian_mesh<T,2> starts from four squares; each call of refine() succeeds and, after k calls, the mesh has 4^(k+1) square cells with sides of length 1/2^(k+1) along the axes that partition the unit square, corners listed as faces(msh, cl) and integrate expect; every edge is stored once, belongs to one cell if it is marked as boundary and to two otherwise, and carries the number of the side of the unit square it lies on. refine() keeps any conforming mesh conforming, and both halves of an edge keep its descriptor.", "quantifier": "all refinement levels; all conforming meshes of quadrangles", "why_tests_cant": "tests look at a few levels and at integrals; a wrong orientation or a wrong mark on one edge of a deep level is not seen", "anchors": ["libdiskpp/include/diskpp/mesh/meshgen.hpp:527-722", "libdiskpp/include/diskpp/geometry/geometry_hexahedral.hpp:141-158"]}
{"id": "C141", "title": "Measures and quadratures on Cartesian meshes", "statement": "measure(msh, cl) and measure(msh, fc) of cartesian meshes return the area, volume or length of the element; on every mesh of the mesher integrate(msh, cl, degree) integrates polynomials up to the requested degree (at most 39) exactly up to the rounding of the tables.", "quantifier": "all levels and all cells in 2D, all boxes in 3D, all degrees and polynomials", "why_tests_cant": "no test calls measure on a 3D Cartesian cell", "anchors": ["libdiskpp/include/diskpp/geometry/geometry_hexahedral.hpp:252-306", "libdiskpp/include/diskpp/quadratures/bits/quad_phys_cartesian.hpp:44-96"]}
{"id": "C142", "title": "Numbering of the boundary unknowns of the virtual element method", "statement": "dof_mapper of degree k >= 1 gives every vertex one number and every face k-1 further numbers, without gaps; face_to_global lists those of a face from its first to its second point, cell_to_global those met on the walk around a cell, counter-clockwise, k per face, without repetition; two cells sharing a face use the same numbers on it; bnd_to_global lists those of the boundary faces only; recompute(msh, k2) gives the mapper of the new degree; degree zero is refused.", "quantifier": "all meshes of triangles, quadrangles and polygons whose cells and faces fit together, all degrees", "why_tests_cant": "an orientation error appears only for degrees above two and for particular vertex numbers; no test calls recompute", "anchors": ["libdiskpp/include/diskpp/methods/implementation_vem/methods_vem_2d.hpp:20-246"]}
{"id": "C143", "title": "The gradient projection of the virtual element method", "statement": "matrix_B integrates the products of gradients of scaled monomials with any function by parts from its degrees of freedom alone, matrix_B times matrix_D is matrix_G, and projector_nabla applied to the degrees of freedom of a polynomial of degree at most k returns its coefficients.", "quantifier": "all polygons, all degrees k >= 1, all functions and polynomials; quadrature rules exact for the degrees requested, exact arithmetic", "why_tests_cant": "a wrong entry only lowers the convergence order; the failure for degree one needs cells whose vertices do not have the centroid of the cell as mean", "anchors": ["libdiskpp/include/diskpp/methods/implementation_vem/methods_vem_2d.hpp:276-526"]}
{"id": "C144", "title": "The local stiffness matrix of the virtual element method", "statement": "compute_local returns a symmetric positive semidefinite matrix whose kernel consists of the constants; for a polynomial p of degree at most k and any function q the form is the integral of grad p . grad q as computed from the degrees of freedom of q (patch test).", "quantifier": "all polygons, all degrees k >= 1, all polynomials and functions; exact rules and arithmetic", "why_tests_cant": "tests solve one smooth problem on triangles and regular polygons, where the vertex mean is the mean", "anchors": ["libdiskpp/include/diskpp/methods/implementation_vem/methods_vem_2d.hpp:574-605", "libdiskpp/include/diskpp/methods/implementation_vem/methods_vem_2d.hpp:644-669"]}
{"id": "C145", "title": "L2 projection and load of the virtual element method", "statement": "projector_zero returns the L2 projection on polynomials of degree k-1 of every function whose projection is determined by its degrees of freedom, in particular of polynomials of degree at most k; the load vector for a polynomial load of degree k-2, tested with the degrees of freedom of a function, is the exact integral.", "quantifier": "all polygons, all degrees, all polynomials and functions; exact rules and arithmetic", "why_tests_cant": "the error concerns terms of degree k only and vanishes on centrally symmetric cells", "anchors": ["libdiskpp/include/diskpp/methods/implementation_vem/methods_vem_2d.hpp:529-571", "libdiskpp/include/diskpp/methods/implementation_vem/methods_vem_2d.hpp:608-641"]}
{"id": "C146", "title": "Global system of the virtual element method", "statement": "test_vem_diffusion marks exactly the unknowns on the faces of the boundary, numbers the others without gaps and assembles the condensed local systems: a vector solves the linear system exactly if, expanded by zero, it is the part on the faces of a solution of the discrete problem; the matrix is non-singular if all unknowns are connected to the boundary; it does so for every mesh.", "quantifier": "all meshes as in C142, all degrees k >= 1, all local systems with symmetric non-singular inner blocks; exact arithmetic", "why_tests_cant": "the assembled meshes of the program have a boundary that is a single closed polygon", "anchors": ["apps/diffusion/src/diffusion_vem.cpp:30-150", "libdiskpp/include/diskpp/methods/implementation_vem/methods_vem_2d.hpp:183-245"]}
{"id": "C147", "title": "Grundmann-Moeller quadrature", "statement": "grundmann_moeller(degree, vertices) integrates every polynomial of total degree at most degree over the triangle or tetrahedron; gm_rule_size is the number of points that gm_rule_set writes; comp_next goes once through every composition; all points are inside the simplex; for degrees from 670 (tetrahedra) and 3248 (triangles) on the number of points overflows.", "quantifier": "all degrees, all triangles and tetrahedra, all polynomials; gm_rule_set in all dimensions; exact arithmetic", "why_tests_cant": "tests integrate monomials up to a small degree on one element; exactness in all degrees and dimensions needs an identity for alternating sums of powers, and the overflow needs a billion points", "anchors": ["libdiskpp/contrib/jburkardt/src/simplex_gm_rule.cpp:15-273", "libdiskpp/contrib/jburkardt/src/simplex_gm_rule.cpp:393-524", "libdiskpp/include/diskpp/quadratures/bits/quad_raw_tetra.hpp:88-127", "libdiskpp/include/diskpp/quadratures/bits/quad_raw_triangle.hpp:2660-2694"]}
{"id": "C148", "title": "Measure and quadrature of polyhedral cells", "statement": "measure(msh, cl) of a generic 3D mesh returns the volume of the cell; integrate(msh, cl, degree) integrates polynomials up to degree over the tetrahedra the cell is split in and its weights sum to measure; cells with fewer than four points are rejected.", "quantifier": "all cells, all lists of faces and directions of their vertices, all degrees up to 669, all polynomials; exact arithmetic", "why_tests_cant": "the meshes of the tests are convex, on which a sum of absolute values cannot be told from the volume", "anchors": ["libdiskpp/include/diskpp/quadratures/bits/raw_simplices.hpp:193-338", "libdiskpp/include/diskpp/geometry/geometry_generic.hpp:155-174", "libdiskpp/include/diskpp/quadratures/bits/quad_phys_generic.hpp:130-200"]}
{"id": "C149", "title": "Xiao-Gimbutas quadrature on tetrahedra", "statement": "arbq(degree, p0, p1, p2, p3), the rule behind integrate on tetrahedral meshes, integrates every polynomial of total degree at most degree within 4e-14 of the volume times the coefficients; it has the tabulated number of points, all inside the tetrahedron, with positive weights that sum to the volume; degree 0 uses the rule of degree 1, and degrees above 15 are refused.", "quantifier": "all degrees up to 15 and all larger ones below 2^31, all tetrahedra, all polynomials; all ways to store the 4076 tabulated numbers within half a unit in the last place", "why_tests_cant": "the tables hold thousands of digits and a wrong digit in the last places of one of them passes tests with tolerances; tests integrate monomials on one tetrahedron", "anchors": ["libdiskpp/contrib/jburkardt/src/tetrahedron_arbq_rule.cpp:3507-3584", "libdiskpp/contrib/jburkardt/src/tetrahedron_arbq_rule.cpp:3764-3781", "libdiskpp/include/diskpp/quadratures/bits/quad_raw_tetra.hpp:36-86", "libdiskpp/include/diskpp/quadratures/bits/quad_phys_simplicial.hpp:110-119"]}
{"id": "C150", "title": "Assemblers of the obstacle problem", "statement": "For every mesh and every set of active cells, obstacle_assembler and obstacle_assembler_nitsche with cell degree 0 build a square system with one unknown per cell and one per basis function of every face that is not eliminated. A vector solves it exactly if the state expand_solution makes of it is in equilibrium: the bilinear form plus the contact forces equals the load for all test functions that vanish where values are prescribed. The state has the projected boundary values, touches the obstacle on the active cells and has no force elsewhere, and every such state comes from a vector. With higher cell degrees expand_solution works as well", "quantifier": "all meshes, active sets, face degrees, local matrices and loads, obstacles and boundary data, both modes", "why_tests_cant": "rows and columns are numbered differently and the columns depend on the active set; a test looks at a few active sets reached by the iteration", "anchors": ["apps/obstacle/obstacle.cpp:215-474", "apps/obstacle/obstacle.cpp:476-674"]}
{"id": "C151", "title": "Active set iteration of the obstacle problem", "statement": "obstacle_solver_strong and obstacle_solver_nitsche return a solution of the discrete obstacle problem: the state satisfies the boundary conditions and is in equilibrium with its contact forces; if a step keeps the active set, the state lies above the obstacle, forces push upwards and act only in contact, it solves the variational inequality and the next step changes nothing; if the loop stops because two iterates differ by less than the tolerance, this holds up to the tolerance times the row norms of the local matrices", "quantifier": "all meshes, obstacles, loads, tolerances and numbers of iterations; exact arithmetic and a linear solver that solves", "why_tests_cant": "the only obstacle in the program is zero, and stopping on the change of the iterates says nothing about inequalities unless it is proved", "anchors": ["apps/obstacle/obstacle.cpp:765-787", "apps/obstacle/obstacle.cpp:799-893", "apps/obstacle/obstacle.cpp:936-1041"]}
{"id": "C152", "title": "Reading FVCA5 mesh files", "statement": "fvca5_mesh_loader::read_mesh of a file made of blocks of vertices, triangles to octagons, boundary or transmission edges and all edges, in any number and order as long as edges come after the polygons they name, reads exactly what the blocks contain: coordinates, corners and domains of the polygons in the order of the file, edges with the smaller node first, and for every polygon the edges that name it as neighbour, each once. Whatever is read, edges join two different nodes, polygons have three to eight corners and neighbours exist. Unknown blocks, edges with a node 0 or twice the same node and files that end early are refused; so should be corners that are not vertices, polygons with too few corners and neighbours that do not exist.", "quantifier": "all files, as lists of lines of tokens", "why_tests_cant": "the mesh files of the tests are all well formed and have their edges after the polygons; files with wrong numbers are not tried", "anchors": ["libdiskpp/include/diskpp/loaders/loader_fvca5.hpp:90-149", "libdiskpp/include/diskpp/loaders/loader_fvca5.hpp:151-266", "libdiskpp/include/diskpp/loaders/loader_fvca5.hpp:268-425"]}
{"id": "C153", "title": "Loading FVCA5 meshes", "statement": "load_mesh_fvca5_2d of a readable file in which every edge is given once, boundary edges are edges, polygons differ and an edge has at most two polygons gives the mesh of the file: points and nodes in order, edges in increasing order, one cell per polygon with its edges, corners and domain. If every edge with one polygon is parallel to an axis, exactly these edges get the number of their side and are boundary; otherwise all boundary edges of the file, and no others, have number 0. Files that cannot be opened or read give false and an empty mesh; other files should too.", "quantifier": "all files, all ways to sort cells with equal edges, all assignments of sides to edges", "why_tests_cant": "meshes of the unit square always take the branch with numbered sides; broken lists of edges do not occur in tests", "anchors": ["libdiskpp/include/diskpp/loaders/loader_fvca5.hpp:427-558", "libdiskpp/include/diskpp/loaders/loader.hpp:103-119", "libdiskpp/include/diskpp/loaders/loader.hpp:155-161", "libdiskpp/include/diskpp/loaders/loader_utils.hpp:105-134"]}
{"id": "C154", "title": "Loading two-dimensional Medit meshes", "statement": "load_mesh_medit of a file with the expected head, one block of vertices, any number of blocks of polygons and of boundary edges in any order, and the keyword End, in which boundary edges are sides of polygons and no two polygons have the same sides, returns true and gives the mesh of the file: points and nodes in order, the sides of the polygons in increasing order and once each, one cell per polygon with its sides and corners, and exactly the edges of the last block of boundary edges on the boundary, with the last number given for them. A missing file, another head or an unknown keyword gives false and an empty mesh. Other files should be refused too, and the numbers of polygons should be kept.", "quantifier": "all files, all ways to sort cells with equal sides", "why_tests_cant": "the Medit files of the tests are complete and consistent", "anchors": ["libdiskpp/include/diskpp/loaders/loader_medit.hpp:43-395", "libdiskpp/include/diskpp/loaders/loader.hpp"]}
{"id": "C155", "title": "Loading three-dimensional Medit meshes", "statement": "load_mesh_medit of a file whose references are in range returns true and gives the mesh of the file up to the renumbering of edges, faces and volumes by sorting: every edge, face and volume of the mesh is one of the file with references translated, and a face is on the boundary exactly if the file lists it, with the last number listed. A missing file or another first section gives false and an empty mesh. Files with wrong references or that end early should be refused, and populate_mesh should report its success.", "quantifier": "all files, all ways to sort equal elements", "why_tests_cant": "the value of populate_mesh is not looked at by the callers of the tests; broken files are not tried", "anchors": ["libdiskpp/include/diskpp/loaders/loader_medit.hpp:398-715", "libdiskpp/include/diskpp/loaders/loader_utils.hpp"]}
{"id": "C156", "title": "Integration on one-dimensional meshes", "statement": "For every degree, integrate on a cell of generic_mesh<T,1> returns degree/2+1 points of the cell with positive weights, and integrates every polynomial of at most that degree over the cell, whatever the order of its two points; so do golub_welsch, gauss_legendre and edge_quadrature on [-1,1]. integrate on a face evaluates.", "quantifier": "all degrees, all polynomials, all cells, all exact solutions of the eigenvalue problem", "why_tests_cant": "tests try finitely many degrees and compare with a tolerance; no test can cover all degrees and polynomials", "anchors": ["libdiskpp/include/diskpp/quadratures/quad_bones.hpp:69-217", "libdiskpp/include/diskpp/quadratures/bits/quad_phys_generic.hpp:222-265"]}
{"id": "C157", "title": "Loading triangle meshes generated by GMSH", "statement": "gmsh_geometry_loader<simplicial_mesh<T,2>>: the points are the nodes GMSH returns with two coordinates and in their order, the edges are the pairs of corners of triangles, each once, the cells are the triangles, and an edge is on the boundary exactly if a curve of the geometry has it, with number and tag of the last such curve, internal if moreover two triangles share it. Every triangle carries the tag and the number of its surface. Sides in no triangle are refused. Elements that are no triangles should be refused.", "quantifier": "all results of the GMSH API for meshes of triangles, all ways to sort equal cells", "why_tests_cant": "needs GMSH and geometries with several surfaces, inner curves and quadrangles; numbers of subdomains are not looked at", "anchors": ["libdiskpp/include/diskpp/loaders/loader_gmsh.hpp:251-480", "libdiskpp/include/diskpp/mesh/mesh_storage.hpp"]}
{"id": "C158", "title": "Loading tetrahedral meshes generated by GMSH", "statement": "gmsh_geometry_loader<simplicial_mesh<T,3>>: the points are the nodes GMSH returns, in their order, edges and surfaces are the pairs and triples of corners of tetrahedra, each once, the cells are the tetrahedra, and a surface is on the boundary exactly if a surface of the geometry has it, with number and tag of the last such surface, internal if moreover two tetrahedra share it. Every tetrahedron carries the tag and the number of its volume. Sides in no tetrahedron are refused. Elements that are no tetrahedra should be refused.", "quantifier": "all results of the GMSH API for meshes of tetrahedra, all ways to sort equal cells", "why_tests_cant": "needs GMSH and geometries with several volumes, inner surfaces and hexahedra; numbers of subdomains are not looked at", "anchors": ["libdiskpp/include/diskpp/loaders/loader_gmsh.hpp:20-249", "libdiskpp/include/diskpp/mesh/mesh_storage.hpp"]}
{"id": "C159", "title": "Loading meshes of prisms generated by GMSH", "statement": "gmsh_geometry_loader<generic_mesh<T,3>>: the points are the nodes GMSH returns, in their order; edges are the edges of the prisms, each once and in order; surfaces are their faces, each once, with points along the border and edge i joining points i and i+1; volumes are the prisms with the numbers of their faces and with number and tag of their region; a surface is on the boundary exactly if a surface of the geometry has it, with number and tag of the last such surface, internal if moreover two prisms share it. A side that is no face of a prism ends in an exception. Elements that are no prisms should be refused.", "quantifier": "all results of the GMSH API for meshes of prisms, all ways to sort equal keys", "why_tests_cant": "needs GMSH and extruded geometries with several volumes, inner surfaces and other elements; a read past the end of a vector passes unnoticed without a sanitizer", "anchors": ["libdiskpp/include/diskpp/loaders/loader_gmsh.hpp:485-990", "libdiskpp/include/diskpp/mesh/mesh_storage.hpp"]}
{"id": "C160", "title": "Triangulation of two-dimensional cells by ear cutting", "statement": "split_in_raw_triangles(msh, cl), split_in_raw_triangles_index and triangulation_earcut_algorithm: the triples returned are indices of the points of the cell. The n distinct vertices of a convex cell, some of them possibly in the middle of a side and listed either way round, give n-2 triangles that tile the cell: all are counter-clockwise with positive area, a point on no line through two vertices is in exactly one of them if it is inside the cell and in none otherwise, and areas and integrals add up to those of the cell. For any other polygon that is used up without repair of crossing sides, the triangles are counter-clockwise and their integrals add up to the one of the polygon. A cell of a Cartesian mesh should be tiled like any convex cell.", "quantifier": "all cells of at most eighty points; all additive functionals of triangles; all points of the plane on no line through two vertices", "why_tests_cant": "a wrong triangle shows only as a gap or an overlap somewhere in a picture; aligned vertices exercise the test against degenerate ears only in some orders; no test compares covered regions", "anchors": ["libdiskpp/include/diskpp/quadratures/bits/raw_simplices.hpp:224-400", "libdiskpp/include/diskpp/contrib/earcut.hpp:159-465", "libdiskpp/include/diskpp/contrib/earcut.hpp:466-497", "libdiskpp/include/diskpp/contrib/earcut.hpp:774-961", "libdiskpp/include/diskpp/loaders/loader_cartesian.hpp:436-446"]}
{"id": "C161", "title": "Meshes for post-processing", "statement": "PostMesh of a mesh in space has as points the nodes, then the barycentres of the faces with more than three nodes, then those of the cells that are no tetrahedra, in the order of the mesh. Tetrahedra are kept; any other convex cell with planar faces is replaced by tetrahedra whose volumes add up to that of the cell; nodes_cell(i) starts with the nodes of the cell, holds valid point numbers and all vertices of its tetrahedra. PostMesh of a mesh in the plane keeps the points and replaces every cell by triangles with vertices among its nodes that tile it. Every point is listed for some cell if every node is in a cell, and a continuous displacement is output at every point with its value.", "quantifier": "all meshes in space with convex cells and planar faces; all meshes of the plane with convex cells of at most eighty points; all displacements", "why_tests_cant": "meshes of cells with arbitrary numbers of faces and points cannot be enumerated; the sum of volumes and the tiling are statements over all positions of the points", "anchors": ["libdiskpp/include/diskpp/output/postMesh.hpp:85-355", "libdiskpp/include/diskpp/output/gmshDisk.hpp:236-310", "libdiskpp/include/diskpp/mechanics/NewtonSolver/NewtonSolver.hpp:841-895", "libdiskpp/include/diskpp/quadratures/bits/raw_simplices.hpp:264-290"]}
{"id": "C162", "title": "Contact forces and their linearization", "statement": "In the nonlinear solver of mechanics, the contact forces of a cell do the work -theta/gamma (sigma_n(u), sigma_n(v)) + 1/gamma ([sigma_nn(u)+gamma gap]_-, theta sigma_nn(v)-gamma v_n) + 1/gamma (P_s(sigma_nt(u)-gamma u_t), theta sigma_nt(v)-gamma v_t) over its contact faces, the contact matrix is their derivative wherever no point is between contact and no contact or stick and slip, and both are added to the stiffness and internal forces and subtracted from the residual.", "quantifier": "all cells, bases, reconstructions, materials, values of theta and gamma, displacements and directions, in the plane and in space", "why_tests_cant": "the derivative is a statement over all displacements and directions; finite differences at some of them miss terms that vanish on flat faces", "anchors": ["libdiskpp/include/diskpp/mechanics/NewtonSolver/NewtonSolverContact.hpp:48-1199", "libdiskpp/include/diskpp/mechanics/NewtonSolver/NewtonSolverComput.hpp:280-302", "libdiskpp/include/diskpp/boundary_conditions/boundary_conditions.hpp:645-747"]}
{"id": "C163", "title": "Laws of contact and friction", "statement": "The projection of the friction terms is the nearest point of the ball, with its derivative; the equations of the solver hold exactly under the laws of Signorini and Tresca; for displacements that satisfy these laws the contact forces do the work of the tractions; theta = 1 gives symmetric and theta = -1 nonnegative matrices for every penalty; the gap leads along the normal to the obstacle and is negative exactly below it; computed normals are unit vectors normal to the edges.", "quantifier": "all vectors, radii, stresses, displacements, penalties, cells with nonnegative quadrature weights, points, and edges or triangles that are not degenerate", "why_tests_cant": "nearest points, equivalence of laws and signs of quadratic forms are statements over all real vectors", "anchors": ["libdiskpp/include/diskpp/mechanics/NewtonSolver/NewtonSolverContact.hpp:48-121", "libdiskpp/include/diskpp/mechanics/NewtonSolver/NewtonSolverContact.hpp:351-404", "libdiskpp/include/diskpp/mechanics/NewtonSolver/NewtonSolverContact.hpp:891-968"]}
{"id": "C164", "title": "Meshes written for GMSH", "statement": "convertMesh gives a GMSH mesh whose nodes are the points of the mesh in their order, numbered from one, and whose elements, numbered from one, are a vertex for every point, an edge for every edge and then the cells. A convex cell of the plane, whatever the order of its points, becomes a triangle or a quadrangle with its nodes counter-clockwise along the boundary, or triangles that tile it; a tetrahedron that is not flat has positive volume; a hexahedron has its nodes in the order of GMSH; every cell is written exactly once. A PostMesh becomes triangles counter-clockwise or tetrahedra of positive volume.", "quantifier": "all meshes of lines, of the plane with convex cells and of space; all orders of the points of a cell", "why_tests_cant": "orders of points and positions of polygons cannot be enumerated; a missing or twisted element shows only as a gap in a picture", "anchors": ["libdiskpp/include/diskpp/output/gmshConvertMesh.hpp:42-473", "libdiskpp/include/diskpp/output/gmshDisk.hpp:41-54", "libdiskpp/include/diskpp/output/gmshDisk.hpp:199-258"]}
{"id": "C165", "title": "Meshes in Silo files", "statement": "add_mesh writes to a Silo database the coordinates of the points and zones that, read back, are the cells in their order: triangles, tetrahedra and polygons with their points, quadrangles and hexahedra of Cartesian meshes with the points in the order Silo asks for, polyhedra with their faces, each face counter-clockwise seen from outside of the cell. It returns true exactly if the database is open and all calls of the library succeed.", "quantifier": "all databases and libraries, all meshes; polyhedra with plane faces", "why_tests_cant": "the orientation of a face depends on the positions of all points of the cell; a wrong one shows only in computed volumes or in shading", "anchors": ["libdiskpp/include/diskpp/output/silo.hpp:66-88", "libdiskpp/include/diskpp/output/silo.hpp:225-663"]}
{"id": "C166", "title": "Variables in Silo files", "statement": "add_variable writes the given values with their name and centering, vectors as one column per component and an expression that puts them together, and returns true exactly if everything was written.", "quantifier": "all databases, libraries, names and values", "why_tests_cant": "failures of the library (a full disk, a file that was closed) do not occur in tests", "anchors": ["libdiskpp/include/diskpp/output/silo.hpp:760-912"]}
{"id": "C167", "title": "Yield law of the Bingham solver", "statement": "The auxiliary rate of a cell minimizes the augmented energy, which is zero below the yield stress and shrinks towards it above; when a pass of the iteration changes nothing, velocity and stress satisfy Bingham's law in every cell together with balance of momentum.", "quantifier": "all cells of the plane and of space, operators of lowest degree, parameters, stresses and velocities", "why_tests_cant": "tests run a few flows on a few meshes and look at pictures; whether the limit satisfies the law is not checked", "anchors": ["apps/bingham/src/bingham_vector_solver.hpp:81-152", "apps/bingham/src/bingham_vector_solver.hpp:214-264"]}
{"id": "C168", "title": "Convergence of the Bingham iteration", "statement": "The number that stops the iteration is the norm of the changes of stress and strain; every pass brings stress and strain closer to every solution of the discrete problem, and the loop stops after finitely many passes.", "quantifier": "all meshes, parameters, solutions and starting stresses", "why_tests_cant": "convergence for all data is a statement about infinitely many passes; the reported number is only compared with a tolerance", "anchors": ["apps/bingham/src/bingham_vector_solver.hpp:214-264", "apps/bingham/src/bingham_vector_solver.hpp:403-460"]}
{"id": "C169", "title": "Solvability of the HHO diffusion problem", "statement": "For a positive semidefinite symmetric diffusion tensor, every local matrix of the diffusion solver is positive semidefinite, every cell block is factorized, and the global matrix that remains after static condensation and elimination of the Dirichlet values is non-singular.", "quantifier": "all meshes whose cells are linked to the boundary, both stabilizations, both reconstructions, all degrees with rd <= fd + 1 and cd <= rd <= cd + 2", "why_tests_cant": "the solver calls MUMPS whatever the matrix; singularity on some mesh is not visible from others", "anchors": ["apps/diffusion/src/diffusion_hho_common.hpp:337-401"]}
{"id": "C170", "title": "The HHO diffusion solver solves the discrete problem", "statement": "run_hho_diffusion_solver ends without error, and the local vectors it recovers are the only ones with common face values, the projected Dirichlet values on the boundary, the loads in the cell rows, and face rows that add up to zero over the cells of an inner face.", "quantifier": "all meshes, loads, Dirichlet data, degrees and tensors as in C169", "why_tests_cant": "numbering, condensation, elimination of boundary values and recovery have to fit together for all meshes", "anchors": ["apps/diffusion/src/diffusion_hho_common.hpp:337-491", "libdiskpp/include/diskpp/methods/implementation_hho/assembler_hho.hpp: diffusion_condensed_assembler"]}
{"id": "C171", "title": "Polynomial solutions of the HHO diffusion solver", "statement": "If the solution is a polynomial of the reconstruction degree, the solver returns its interpolate in every cell, and all three errors it reports are zero. For every solution the accumulated errors are the squared norms of the difference to the interpolate, summed over the cells.", "quantifier": "all meshes, polynomials, tensors and degrees as in C169, on cells where Green's formula holds and the normals of the two cells of a face are opposite", "why_tests_cant": "a test takes one polynomial on one mesh; round-off hides small inconsistencies", "anchors": ["apps/diffusion/src/diffusion_hho_common.hpp:337-518"]}
{"id": "C172", "title": "Data of the scalar test problems", "statement": "In the programs for scalar problems the load, the exact solution and the exact gradient belong together: the gradient is the gradient of the solution, and the load is -div(D grad u) + c u for the tensor D and the coefficient c of the program. Neumann data are normal derivatives; the solution of the heat programs satisfies the heat equation, the initial and the boundary condition; the solution of the obstacle program satisfies the obstacle problem.", "quantifier": "all points, all diffusion tensors handed to the program", "why_tests_cant": "a wrong load or gradient shows as a lost convergence rate only for the tensor that is run; the programs are the tests, nothing tests their data", "anchors": ["apps/diffusion/src/diffusion_hho_common.hpp:59-313", "apps/diffusion/src/variable_diffusion_hho.cpp:45-182", "apps/helmholtz/helmholtz.cpp:20-91", "apps/obstacle/obstacle.cpp:82-160", "apps/transmission/linear_transmission.cpp:374-473", "apps/contact/src/diffusion_nitsche_solver.hpp:35-468", "apps/diskpp_tutorials/diskpp_tutorial_2.cpp:54-100", "apps/unsteady_laplacian/src/unsteady_laplacian.cpp:93-100"]}
{"id": "C173", "title": "Data of the solid mechanics test problems", "statement": "In the programs for elasticity, contact and hyperelasticity the load is minus the divergence of the stress of the exact displacement, the exact stress the error is measured with is the stress of the exact displacement, initial values are those of the exact motion, and on the contact face the exact displacement satisfies the conditions of unilateral contact with Tresca friction for the bound of the program.", "quantifier": "all points, all Lame parameters with lambda + 1 not zero (contact: lambda >= 0, mu >= 1, points with x >= 0)", "why_tests_cant": "errors of the stress stay bounded away from zero without any failure; the programs print numbers nobody compares", "anchors": ["apps/linear_elasticity/src/linear_elasticity_test.cpp:81-235", "apps/nonlinear_solid_mechanics/src/elasticity_test.cpp:73-243", "apps/nonlinear_solid_mechanics/src/elastodynamic_test.cpp:72-255", "apps/nonlinear_solid_mechanics/src/contact_test.cpp:192-314", "apps/nonlinear_solid_mechanics/src/hyperelasticity_test.cpp:74-163"]}
{"id": "C174", "title": "Data of the Stokes, vector Laplacian and Maxwell test problems", "statement": "The velocities of the Stokes program are divergence free and satisfy -Laplace u + grad p = f, also with twice the symmetric gradient in place of the gradient. The data of the vector Laplacian programs satisfy -lambda Laplace u = f with the gradient given. The data of the Maxwell program satisfy curl curl E - omega^2 E = f with the curl given.", "quantifier": "all points and all values of the coefficients lambda and omega", "why_tests_cant": "as for C172", "anchors": ["apps/stokes/stokes.cpp:114-220", "apps/vector_laplacian/src/vector_laplacian_test.cpp:81-166", "apps/diffusion/src/diffusion_low_grad_vector.cpp:20-98", "apps/maxwell/src/maxwell.cpp:564-577", "apps/maxwell/src/maxwell.cpp:723-750"]}
{"id": "C175", "title": "The matrix of the discontinuous Galerkin diffusion solver is that of a coercive form", "statement": "The matrix assembled by the discontinuous Galerkin diffusion program is symmetric, is the matrix of the symmetric interior penalty form, and is positive definite, so that the discrete problem has one solution. The right-hand side is the load.", "quantifier": "all meshes with at most two cells per face, all degrees, all loads, all penalties", "why_tests_cant": "The program is run with a few meshes and penalties and its results are compared by eye; no finite set of runs shows that no penalty or mesh gives a singular or indefinite matrix, and LU factorization does not report indefiniteness.", "anchors": ["apps/diffusion/src/diffusion_dg.cpp:133-217", "apps/diffusion/src/diffusion_dg.cpp:266-303", "libdiskpp/include/diskpp/methods/implementation_dg/assembler.hpp"]}
{"id": "C176", "title": "The discontinuous Galerkin diffusion solver returns polynomial solutions", "statement": "If the solution of -Laplace u = f with u = 0 on the boundary is a polynomial of at most the degree of the method, the program returns its coefficients in every cell and the reported error is zero. In general the reported error is the distance of the computed solution to the projection of the given one.", "quantifier": "all meshes with at most two cells per face, all degrees, all penalties for which the system is non-singular", "why_tests_cant": "The only data in the program is a product of sines, for which nothing is reproduced exactly; consistency errors of the order of the discretization error are invisible.", "anchors": ["apps/diffusion/src/diffusion_dg.cpp:133-263"]}
{"id": "C177", "title": "The first-order finite element program solves its discrete problem", "statement": "For every mesh of triangles of positive area the finite element program assembles a symmetric positive definite system for the points not on the boundary and returns the one continuous piecewise affine function that vanishes on the boundary and satisfies the discrete equations for all such functions; it has the least energy. The values written for the cells are those at their barycenters.", "quantifier": "all meshes of triangles, all loads, all positive coefficients, in particular those of the program", "why_tests_cant": "The program prints no error and is not tested. A wrong entry of the maps between points and unknowns shows up only for some numberings of the points; a singular matrix only for special meshes.", "anchors": ["apps/cfem/src/cfem.cpp:30-176", "libdiskpp/include/diskpp/cfem/cfem.hpp:29-151"]}
{"id": "C178", "title": "Weak Dirichlet conditions: consistent, symmetric and positive", "statement": "apply_dirichlet_via_nitsche adds, on every boundary face of a cell and nowhere else, the consistency, symmetry and penalty terms of the reconstruction to the matrix and the matching terms to the load. The result is symmetric. For a polynomial of the reconstruction degree that takes the boundary values, the interpolate satisfies the equations up to the boundary flux that integration by parts cancels. The local matrix stays positive.", "quantifier": "all cells with exact quadratures, all degrees with fd <= rd <= fd+1 and cd >= rd-2, all data, all unknowns, all penalizations", "why_tests_cant": "The two programs that call it use homogeneous data and the default penalization on fixed meshes. A wrong sign of the symmetry term or of the load is invisible for homogeneous data; loss of positivity shows only in special vectors.", "anchors": ["libdiskpp/include/diskpp/methods/implementation_hho/scalar_hho_laplacian.hpp:571-632", "apps/unsteady_laplacian/src/unsteady_laplacian.cpp:115", "apps/obstacle/obstacle.cpp:1010"]}
{"id": "C179", "title": "The heat equation program solves the backward Euler scheme and is stable", "statement": "In every time step the program computes unknowns u with (u, v) + dt a(u, v) = (w, v) + dt l(v) for all v, where w is the previous solution (at first the projection of the initial value), a is the discrete operator with weak boundary conditions and l the load. A steady solution that is a polynomial of degree k+1 is kept exactly. Without source and boundary values the L2 norm does not grow, whatever the time step.", "quantifier": "all meshes, degrees, time steps, numbers of steps, loads, boundary and initial values", "why_tests_cant": "The program is run for one exact solution that decays to rounding level within a few steps, so that stability and the coupling of the steps are not visible in the printed number; the matrix can lose positivity for special vectors only.", "anchors": ["apps/unsteady_laplacian/src/unsteady_laplacian.cpp:66-214", "apps/unsteady_laplacian/src/unsteady_laplacian.cpp:142-182"]}
{"id": "C180", "title": "The error printed by the heat equation program is that of the computed solutions", "statement": "The time loop ends for every positive time step. The printed number is the square root of the sum over the steps of dt times the squared L2 norm of the gradient of the difference between the computed solution and the projection of the exact solution at the time of that step; it is zero if all computed solutions are exact.", "quantifier": "all meshes, degrees, time steps, exact solutions", "why_tests_cant": "The number is compared by eye. Measuring against the wrong time level adds an error of the order of the time step, the same order as that of the method, so no convergence study reveals it.", "anchors": ["apps/unsteady_laplacian/src/unsteady_laplacian.cpp:150-214"]}
{"id": "C181", "title": "Each assembly of the scriptable Poisson solver uses the conditions the script has set at that time", "statement": "Whenever the Lua function assemble is called, a face is left out of the linear system exactly when the script asks for a strong condition on it at that time: the face is marked in the mesh and its tag has the type dirichlet, or it has no type and the face is on the outside. The compress and expand tables number the remaining faces from 0 and are inverse of each other, and the reported reconstruction degrees are those of the current order.", "quantifier": "all meshes, boundary tables, orders and sequences of calls of assemble", "why_tests_cant": "A script that assembles once is not affected. A script that changes a condition or the order and assembles again gets a solvable system and a plausible picture.", "anchors": ["apps/poisson_solver/src/poisson_solver.cpp:278-318", "apps/poisson_solver/src/poisson_solver.cpp:686-740", "apps/poisson_solver/src/poisson_solver.cpp:266", "apps/poisson_solver/src/poisson_assembler.h:29-132", "apps/poisson_solver/src/lua_interface.h:85-120"]}
{"id": "C182", "title": "The scriptable Poisson solver returns the solution of the discrete problem with the given conditions", "statement": "The face values written by different cells agree; Dirichlet faces carry the projection of their data and outer faces without a condition zero; in each cell the cell equations hold with the load; on each other face the sum of the fluxes of its cells plus the Robin term equals the given flux data; across a jump face the traces of the two sides differ by the given jump.", "quantifier": "all meshes, local operators with invertible cell block, boundary conditions and data, solutions of the linear system", "why_tests_cant": "Jump conditions have no test, and for a zero jump the result is right. A jump applied from both sides only shifts the face unknowns, which are not plotted.", "anchors": ["apps/poisson_solver/src/poisson_solver.cpp:121-220", "apps/poisson_solver/src/poisson_solver.cpp:320-375", "apps/poisson_solver/src/poisson_assembler.h:134-221", "apps/poisson_solver/src/poisson_jump.cpp:148-165"]}
{"id": "C183", "title": "The program with a jump condition solves the problem with the jump", "statement": "The program returns cell and face values that satisfy: the trace is zero on the outside of the domain; in each cell the cell equations hold with the coefficient 10 in the domain 2 and 1 elsewhere; on each inner face the fluxes of its cells balance the given flux jump, counted once; on the faces with tag 8 the trace seen from the domain 2 exceeds the one seen from the other side by the given jump. Conversely every solution of this problem is found.", "quantifier": "all meshes, local operators with invertible cell block, loads and jump data", "why_tests_cant": "The jumps compiled into the program are zero, so no run of it exercises the jump terms.", "anchors": ["apps/poisson_solver/src/poisson_jump.cpp:92-200", "libdiskpp/include/diskpp/methods/hho_assemblers.hpp:22-275"]}
