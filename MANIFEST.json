{
 "claims": [
  {
   "property": "C01",
   "status": "proved",
   "theorems": [
    "Verif.Ident.c01_roundtrip",
    "Verif.Ident.c01_conv_all",
    "Verif.Ident.c01_throws_iff",
    "Verif.Ident.c01_compare",
    "Verif.Ident.c01_collision"
   ],
   "note": "The property includes the loss at 2^31; c01_collision shows it for every such value."
  },
  {
   "property": "C02",
   "status": "partial",
   "theorems": [
    "Verif.Ident.c02_invalid32",
    "Verif.Ident.c02_generic_partial",
    "Verif.Ident.c02_generic_violation"
   ],
   "note": "Holds for the 32-bit identifier. The generic identifier violates it: the unset identifier equals element 0 (witness proved)."
  },
  {
   "property": "C03",
   "status": "proved",
   "theorems": [
    "Verif.Lookup.c03_reads_in_range",
    "Verif.Lookup.c03_found_iff",
    "Verif.Lookup.c03_not_found_iff",
    "Verif.Lookup.c03_lookup"
   ],
   "note": ""
  },
  {
   "property": "C04",
   "status": "partial",
   "theorems": [
    "Verif.Lookup.c04_offset_stored_partial",
    "Verif.Lookup.c04_offset_absent",
    "Verif.Lookup.c04_offset_violation"
   ],
   "note": "The code violates the second clause: an absent element gets the offset of its successor."
  },
  {
   "property": "C05",
   "status": "proved",
   "theorems": [
    "Verif.Lookup.c05_any_sort",
    "Verif.Lookup.c05_sort_uniq",
    "Verif.Lookup.c05_lookup_after"
   ],
   "note": ""
  },
  {
   "property": "C06",
   "status": "proved",
   "theorems": [
    "Verif.PolygonStore.c06_roundtrip",
    "Verif.PolygonStore.c06_add_appends"
   ],
   "note": ""
  },
  {
   "property": "C14",
   "status": "proved",
   "theorems": [
    "Verif.MeshTopo.c14_classified",
    "Verif.MeshTopo.c14_iterators",
    "Verif.MeshTopo.c14_iterator_with_id",
    "Verif.MeshTopo.c14_partition"
   ],
   "note": ""
  },
  {
   "property": "C15",
   "status": "proved",
   "theorems": [
    "Verif.MeshTopo.c15_boundary_id",
    "Verif.MeshTopo.c15_id_list"
   ],
   "note": ""
  },
  {
   "property": "C07",
   "status": "proved",
   "theorems": [
    "Verif.Util.c07_iexp_pow",
    "Verif.Util.c07_iexp_pow_iter",
    "Verif.Util.c07_cost"
   ],
   "note": ""
  },
  {
   "property": "C08",
   "status": "partial",
   "theorems": [
    "Verif.Util.c08_binomial_partial",
    "Verif.Util.c08_violation_k_gt_n",
    "Verif.Util.c08_violation_wrap",
    "Verif.Util.c08_division_by_zero"
   ],
   "note": "The code violates it for k > n (binomial(0,1) = 1), wraps around from n = 13, and divides by zero for every k >= 34."
  },
  {
   "property": "C09",
   "status": "proved",
   "theorems": [
    "Verif.Util.c09_scalar",
    "Verif.Util.c09_vector_matrix",
    "Verif.Util.c09_sym_matrix",
    "Verif.Util.c09_new_bases",
    "Verif.Util.c09_raviart_thomas",
    "Verif.Util.c09_harmonic"
   ],
   "note": "Without size_t overflow. For symmetric matrices of an order other than 2 or 3 the code returns 0 (also proved)."
  },
  {
   "property": "C10",
   "status": "proved",
   "theorems": [
    "Verif.Bases.c10_exps2",
    "Verif.Bases.c10_exps3",
    "Verif.Bases.c10_eval2",
    "Verif.Bases.c10_eval3",
    "Verif.Bases.c10_barycenter"
   ],
   "note": ""
  },
  {
   "property": "C11",
   "status": "proved",
   "theorems": [
    "Verif.Bases.c11_grad1",
    "Verif.Bases.c11_grad2",
    "Verif.Bases.c11_grad3"
   ],
   "note": "Real arithmetic; arbitrary frame matrix. The newer 1D basis is C55."
  },
  {
   "property": "C12",
   "status": "partial",
   "theorems": [
    "Verif.Legendre.c12_values",
    "Verif.Legendre.c12_derivatives_partial",
    "Verif.Legendre.c12_derivative_violation"
   ],
   "note": "Values are right; the derivatives of degrees 8 and 10 are wrong at every x ≠ 0 (mistyped coefficients)."
  },
  {
   "property": "C13",
   "status": "partial",
   "theorems": [
    "Verif.Rational.c13_exact",
    "Verif.Rational.c13_normalising",
    "Verif.Rational.c13_order_partial",
    "Verif.Rational.c13_violation"
   ],
   "note": "Values are exact; multiplication and division can leave a negative denominator, after which `<` and abs are wrong. Integer overflow is not modelled."
  },
  {
   "property": "C54",
   "status": "partial",
   "theorems": [
    "Verif.Bases.c54_rt3_partial",
    "Verif.Bases.c54_rt2",
    "Verif.Bases.c54_rt3_violation"
   ],
   "note": "Violated in 3D at degree 1: the fourth function is identically zero."
  },
  {
   "property": "C55",
   "status": "partial",
   "theorems": [
    "Verif.Bases.c55_grad1_partial",
    "Verif.Bases.c55_degree0_violation",
    "Verif.Bases.c55_scale_violation"
   ],
   "note": "Holds for degree ≥ 1, default scale factor and increasing end points; out-of-range write at degree 0 and wrong values for other scale factors."
  },
  {
   "property": "C56",
   "status": "proved",
   "theorems": [
    "Verif.Legendre.c56_orthonormal"
   ],
   "note": ""
  },
  {
   "property": "C16",
   "status": "proved",
   "theorems": [
    "Verif.Neighbours.c16_compute",
    "Verif.Neighbours.c16_neighbour",
    "Verif.Neighbours.c16_symmetric",
    "Verif.Neighbours.c16_duplicate_face",
    "Verif.Neighbours.c16_mark_internal"
   ],
   "note": "Sorted cells and faces, distinct faces per cell; c16_duplicate_face shows what happens with a repeated face."
  },
  {
   "property": "C17",
   "status": "proved",
   "theorems": [
    "Verif.BoundaryCond.c17_last_wins",
    "Verif.BoundaryCond.c17_face_overloads"
   ],
   "note": ""
  },
  {
   "property": "C18",
   "status": "partial",
   "theorems": [
    "Verif.BoundaryCond.c18_count_partial",
    "Verif.BoundaryCond.c18_count_is_coverage",
    "Verif.BoundaryCond.c18_count_violation"
   ],
   "note": "Violated when a face is covered twice by one kind: it is counted twice."
  },
  {
   "property": "C19",
   "status": "partial",
   "theorems": [
    "Verif.BoundaryCond.c19_ids_partial",
    "Verif.BoundaryCond.c19_contact_violation"
   ],
   "note": "contact_boundary_id(face) returns the Robin id."
  },
  {
   "property": "C20",
   "status": "proved",
   "theorems": [
    "Verif.BoundaryCond.c20_vector",
    "Verif.BoundaryCond.c20_query"
   ],
   "note": ""
  },
  {
   "property": "C57",
   "status": "partial",
   "theorems": [
    "Verif.BoundaryCond.c57_exclusive_partial",
    "Verif.BoundaryCond.c57_exclusive_violation"
   ],
   "note": "Violated when one boundary id is given two kinds."
  },
  {
   "property": "C58",
   "status": "partial",
   "theorems": [
    "Verif.BoundaryCond.c58_contact_lists_partial",
    "Verif.BoundaryCond.c58_contact_lists_violation",
    "Verif.BoundaryCond.c58_unknown_faces"
   ],
   "note": "Violated when a contact condition of type NO_CONTACT is added."
  },
  {
   "property": "C21",
   "status": "partial",
   "theorems": [
    "Verif.Props.Assembly.c21_numbering_partial",
    "Verif.Props.Assembly.c21_ranges_partial",
    "Verif.Props.Assembly.c21_basic_partial",
    "Verif.Props.Assembly.c21_empty_vector_violation"
   ],
   "note": "Holds with one flag per face. Violated by the basic assembler's constructor taking a vector of flags when that vector is empty: boundary faces are skipped but counted as unknown."
  },
  {
   "property": "C22",
   "status": "proved",
   "theorems": [
    "Verif.Props.Assembly.c22_residual",
    "Verif.Props.Assembly.c22_equivalence"
   ],
   "note": ""
  },
  {
   "property": "C23",
   "status": "proved",
   "theorems": [
    "Verif.Props.Assembly.c23_take_local",
    "Verif.Props.Assembly.c23_basic_take_local"
   ],
   "note": ""
  },
  {
   "property": "C24",
   "status": "partial",
   "theorems": [
    "Verif.Props.Condensation.c24_condensation_partial",
    "Verif.Props.Condensation.c24_rejects_partial",
    "Verif.Props.Condensation.c24_schur_partial",
    "Verif.Props.Condensation.c24_vem_schur_partial",
    "Verif.Props.Condensation.c24_nonsymmetric_violation"
   ],
   "note": "Holds for a symmetric invertible cell block whose factorisation succeeds; violated for an invertible non-symmetric cell block, because LDLT reads only the lower triangle."
  },
  {
   "property": "C25",
   "status": "proved",
   "theorems": [
    "Verif.Props.Assembly.c25_ranges",
    "Verif.Props.Assembly.c25_placement",
    "Verif.Props.Assembly.c25_sum",
    "Verif.Props.Assembly.c25_disjoint"
   ],
   "note": ""
  },
  {
   "property": "C26",
   "status": "proved",
   "theorems": [
    "Verif.Props.Assembly.c26_assembly_index",
    "Verif.Props.Assembly.c26_no_eliminated"
   ],
   "note": ""
  },
  {
   "property": "C59",
   "status": "proved",
   "theorems": [
    "Verif.Props.Assembly.c59_basic_residual"
   ],
   "note": ""
  },
  {
   "property": "C48",
   "status": "proved",
   "theorems": [
    "Verif.Props.Adaptivity.c48_last_write",
    "Verif.Props.Adaptivity.c48_initial",
    "Verif.Props.Adaptivity.c48_frame",
    "Verif.Props.Adaptivity.c48_cell_summary"
   ],
   "note": "The setters of DegreeInfo that return a value from a void function do not compile when instantiated and are left out."
  },
  {
   "property": "C49",
   "status": "partial",
   "theorems": [
    "Verif.Props.SparseRaw.c49_round_trip_partial",
    "Verif.Props.SparseRaw.c49_one_based",
    "Verif.Props.SparseRaw.c49_tall_violation",
    "Verif.Props.SparseRaw.c49_copy_violation"
   ],
   "note": "Holds for one view of a matrix with at most as many rows as columns; violated for tall matrices and for copied views."
  },
  {
   "property": "C52",
   "status": "partial",
   "theorems": [
    "Verif.Props.Elements.c52_lt_strict_total",
    "Verif.Props.Elements.c52_eq_partial",
    "Verif.Props.Elements.c52_eq_general",
    "Verif.Props.Elements.c52_violation",
    "Verif.Props.Elements.c52_limited_partial",
    "Verif.Props.Elements.c52_limited_violation"
   ],
   "note": "The order is strict and total; equality compares only a prefix when the left operand is shorter."
  },
  {
   "property": "C29",
   "status": "proved",
   "theorems": [
    "Verif.Props.UniformMesh.c29_uniform",
    "Verif.Props.UniformMesh.c29_reversed"
   ],
   "note": "Exact arithmetic. c29_reversed shows what happens for x_max < x_min."
  },
  {
   "property": "C33",
   "status": "partial",
   "theorems": [
    "Verif.Props.MappedFile.c33_lines_partial",
    "Verif.Props.MappedFile.c33_end_general",
    "Verif.Props.MappedFile.c33_end_violation",
    "Verif.Props.MappedFile.c33_rest_violation",
    "Verif.Props.MappedFile.c33_violation",
    "Verif.Props.MappedFile.c33_empty"
   ],
   "note": "Terminated lines are read exactly; an unterminated last line is lost and the end-of-file predicate is inverted. System calls are assumed to succeed."
  },
  {
   "property": "C34",
   "status": "proved",
   "theorems": [
    "Verif.Props.Hypercube.c34_number2",
    "Verif.Props.Hypercube.c34_number3",
    "Verif.Props.Hypercube.c34_renumber"
   ],
   "note": "Exact arithmetic and unit normals; sorted cells and faces, distinct faces per cell."
  },
  {
   "property": "C40",
   "status": "partial",
   "theorems": [
    "Verif.Props.BoundingBox.c40_chain_partial",
    "Verif.Props.BoundingBox.c40_dim1_partial",
    "Verif.Props.BoundingBox.c40_assert_general",
    "Verif.Props.BoundingBox.c40_violation",
    "Verif.Props.BoundingBox.c40_assert_violation"
   ],
   "note": "Holds without asserts when any two points are componentwise comparable (in particular in dimension one); violated in general."
  },
  {
   "property": "C47",
   "status": "partial",
   "theorems": [
    "Verif.Props.ConjGrad.c47_sizes",
    "Verif.Props.ConjGrad.c47_square",
    "Verif.Props.ConjGrad.c47_residual",
    "Verif.Props.ConjGrad.c47_converged_partial",
    "Verif.Props.ConjGrad.c47_violation",
    "Verif.Props.ConjGrad.c47_breakdown_violation"
   ],
   "note": "The last clause is violated: true is returned also when the iteration limit is reached or the iteration breaks down."
  },
  {
   "property": "C50",
   "status": "partial",
   "theorems": [
    "Verif.Props.Locate.c50_existing_level",
    "Verif.Props.Locate.c50_far_level",
    "Verif.Props.Locate.c50_violation",
    "Verif.Props.Locate.c50_inside"
   ],
   "note": "Violated at the level equal to the number of stored meshes."
  },
  {
   "property": "C53",
   "status": "proved",
   "theorems": [
    "Verif.Props.LocalMatrix.c53_symmetric",
    "Verif.Props.LocalMatrix.c53_quadratic_form",
    "Verif.Props.LocalMatrix.c53_stiffness_zero",
    "Verif.Props.LocalMatrix.c53_projection",
    "Verif.Props.LocalMatrix.c53_psd",
    "Verif.Props.LocalMatrix.c53_kernel",
    "Verif.Props.LocalMatrix.c53_material_symmetric",
    "Verif.Props.LocalMatrix.c53_material_psd"
   ],
   "note": "Exact arithmetic."
  },
  {
   "property": "C60",
   "status": "proved",
   "theorems": [
    "Verif.Props.ConjGrad.c60_orthogonal",
    "Verif.Props.ConjGrad.c60_energy",
    "Verif.Props.ConjGrad.c60_solves"
   ],
   "note": "Exact arithmetic."
  },
  {
   "property": "C35",
   "status": "partial",
   "theorems": [
    "Verif.Props.Polygon.c35_inside_partial",
    "Verif.Props.Polygon.c35_always_true",
    "Verif.Props.Polygon.c35_violation"
   ],
   "note": "The test accepts every point of the plane, so inside points are accepted and outside points are not rejected."
  },
  {
   "property": "C37",
   "status": "proved",
   "theorems": [
    "Verif.Props.Polygon.c37_any_centre",
    "Verif.Props.Polygon.c37_fan",
    "Verif.Props.Polygon.c37_convex"
   ],
   "note": "Exact arithmetic."
  },
  {
   "property": "C61",
   "status": "partial",
   "theorems": [
    "Verif.Props.Polygon.c61_star_partial",
    "Verif.Props.Polygon.c61_convex_partial",
    "Verif.Props.Polygon.c61_nonconvex_violation"
   ],
   "note": "Holds when the polygon is seen from its barycenter, in particular for convex polygons; violated for an L-shaped hexagon (area 5, measure 1)."
  },
  {
   "property": "C62",
   "status": "proved",
   "theorems": [
    "Verif.Props.Polygon.c62_weighted_mean",
    "Verif.Props.Polygon.c62_inside"
   ],
   "note": "Exact arithmetic."
  },
  {
   "property": "C63",
   "status": "partial",
   "theorems": [
    "Verif.Props.Polygon.c63_complete_partial",
    "Verif.Props.Polygon.c63_quadrilateral_partial",
    "Verif.Props.Polygon.c63_violation"
   ],
   "note": "Convex polygons are always recognised and the answer is exact for quadrilaterals; a self-crossing pentagram and every triangle are reported convex."
  },
  {
   "property": "C36",
   "status": "proved",
   "theorems": [
    "Verif.Props.Simplex.c36_inside",
    "Verif.Props.Simplex.c36_boundary"
   ],
   "note": "Exact arithmetic. c36_boundary shows that acceptance of boundary points depends on the orientation."
  },
  {
   "property": "C38",
   "status": "proved",
   "theorems": [
    "Verif.Props.Simplex.c38_plane",
    "Verif.Props.Simplex.c38_space"
   ],
   "note": "Exact real arithmetic, in the plane and in space."
  },
  {
   "property": "C39",
   "status": "partial",
   "theorems": [
    "Verif.Props.Simplex.c39_rational_partial",
    "Verif.Props.Simplex.c39_violation",
    "Verif.Props.Simplex.c39_float_tetrahedron",
    "Verif.Props.Simplex.c39_float_triangle"
   ],
   "note": "The rational measure of a triangle is twice its area, for every triangle; tetrahedra are right."
  },
  {
   "property": "C64",
   "status": "proved",
   "theorems": [
    "Verif.Props.Simplex.c64_triangle",
    "Verif.Props.Simplex.c64_tetrahedron",
    "Verif.Props.Simplex.c64_convex_polygon"
   ],
   "note": "Exact real arithmetic."
  },
  {
   "property": "C65",
   "status": "proved",
   "theorems": [
    "Verif.Props.ElementSize.c65_diameter",
    "Verif.Props.ElementSize.c65_widths",
    "Verif.Props.ElementSize.c65_box",
    "Verif.Props.ElementSize.c65_centre"
   ],
   "note": "Exact arithmetic; coordinates below the largest floating-point number."
  },
  {
   "property": "C66",
   "status": "proved",
   "theorems": [
    "Verif.Props.ElementSize.c66_spread",
    "Verif.Props.ElementSize.c66_bounded",
    "Verif.Props.ElementSize.c66_axis",
    "Verif.Props.ElementSize.c66_face"
   ],
   "note": "Exact arithmetic; the axes matrix is arbitrary (the eigenvalue solver is not modelled)."
  },
  {
   "property": "C41",
   "status": "proved",
   "theorems": [
    "Verif.Props.Gauss.c41_legendre",
    "Verif.Props.Gauss.c41_legendre_segment",
    "Verif.Props.Gauss.c41_lobatto",
    "Verif.Props.Gauss.c41_lobatto_segment",
    "Verif.Props.Gauss.c41_refused",
    "Verif.Props.Gauss.c41_lobatto_ends"
   ],
   "note": "All 40 tables checked by kernel evaluation; every table within half an ulp of the literals; arithmetic after the lookup is exact."
  },
  {
   "property": "C67",
   "status": "partial",
   "theorems": [
    "Verif.Props.PlaneQuad.c67_quadrilateral_partial",
    "Verif.Props.PlaneQuad.c67_parallelogram_partial",
    "Verif.Props.PlaneQuad.c67_triangle",
    "Verif.Props.PlaneQuad.c67_triangle_clockwise",
    "Verif.Props.PlaneQuad.c67_polygon",
    "Verif.Props.PlaneQuad.c67_refused",
    "Verif.Props.PlaneQuad.c67_violation",
    "Verif.Props.PlaneQuad.c67_spec_rectangle",
    "Verif.Props.PlaneQuad.c67_spec_area"
   ],
   "note": "The code violates it for odd degrees on convex quadrilaterals that are not parallelograms: the Jacobian of the bilinear map is not counted in the choice of the rule (c67_violation, degree 1 on a trapezoid, error above 1/20). Non-convex cells and triangle degrees above 30 need code that is not modelled."
  },
  {
   "property": "C68",
   "status": "proved",
   "theorems": [
    "Verif.Props.PlaneQuad.c68_triangle",
    "Verif.Props.PlaneQuad.c68_area",
    "Verif.Props.PlaneQuad.c68_refused"
   ],
   "note": "Every table within half an ulp of the literals; arithmetic after the lookup is exact."
  },
  {
   "property": "C42",
   "status": "partial",
   "theorems": [
    "Verif.Props.Dunavant.c42_weights_partial",
    "Verif.Props.Dunavant.c42_exact_partial",
    "Verif.Props.Dunavant.c42_refused",
    "Verif.Props.Dunavant.c42_violation"
   ],
   "note": "The code violates it at degree 21: the guard counts the sentinel, so an assertion fails or, without assertions, the rule is empty. Degrees up to 20 are also exact for all polynomials (c42_exact_partial)."
  },
  {
   "property": "C43",
   "status": "partial",
   "theorems": [
    "Verif.Props.TimeStepping.c43_partial",
    "Verif.Props.TimeStepping.c43_resume_partial",
    "Verif.Props.TimeStepping.c43_empty",
    "Verif.Props.TimeStepping.c43_stages_partial",
    "Verif.Props.TimeStepping.c43_until_partial",
    "Verif.Props.TimeStepping.c43_violation"
   ],
   "note": "Holds in exact arithmetic for every history. Violated in double precision: ListOfTimeStep(100, 11) loses its last step because 11 times the rounded step exceeds 100 (c43_violation, for every rounding to nearest)."
  },
  {
   "property": "C44",
   "status": "partial",
   "theorems": [
    "Verif.Props.Mgis.c44_full",
    "Verif.Props.Mgis.c44_four_partial",
    "Verif.Props.Mgis.c44_six",
    "Verif.Props.Mgis.c44_violation",
    "Verif.Props.Mgis.c44_six_partial",
    "Verif.Props.Mgis.c44_sizes",
    "Verif.Props.Mgis.c44_plane"
   ],
   "note": "Violated for size 6: entry 5 is written to (0,1) instead of (1,2), so exactly the symmetric matrices with zero (0,1) and (1,2) entries survive. Real arithmetic."
  },
  {
   "property": "C45",
   "status": "proved",
   "theorems": [
    "Verif.Props.TensorAlg.c45_coeff",
    "Verif.Props.TensorAlg.c45_write",
    "Verif.Props.TensorAlg.c45_tm_prod",
    "Verif.Props.TensorAlg.c45_mt_prod",
    "Verif.Props.TensorAlg.c45_tm_prod_at",
    "Verif.Props.TensorAlg.c45_contracted",
    "Verif.Props.TensorAlg.c45_kronecker",
    "Verif.Props.TensorAlg.c45_product_sup",
    "Verif.Props.TensorAlg.c45_product_inf",
    "Verif.Props.TensorAlg.c45_odot",
    "Verif.Props.TensorAlg.c45_transpose",
    "Verif.Props.TensorAlg.c45_identity",
    "Verif.Props.TensorAlg.c45_identity_sym",
    "Verif.Props.TensorAlg.c45_ixi"
   ],
   "note": "Any field (characteristic not 2 for the symmetric identity)."
  },
  {
   "property": "C46",
   "status": "proved",
   "theorems": [
    "Verif.Props.Mgis.c46_symmetric",
    "Verif.Props.Mgis.c46_value",
    "Verif.Props.Mgis.c46_formula"
   ],
   "note": "Real arithmetic."
  },
  {
   "property": "C69",
   "status": "partial",
   "theorems": [
    "Verif.Props.Mgis.c69_four",
    "Verif.Props.Mgis.c69_five",
    "Verif.Props.Mgis.c69_nine",
    "Verif.Props.Mgis.c69_six_partial",
    "Verif.Props.Mgis.c69_violation",
    "Verif.Props.Mgis.c69_order_violation",
    "Verif.Props.Mgis.c69_sizes"
   ],
   "note": "Violated for size 36: the tangent uses the order 11, 22, 33, 23, 31, 12 while vectors use 11, 22, 33, 12, 13, 23 (c69_violation), and even in its own order two entries have wrong factors (c69_order_violation). Real arithmetic."
  },
  {
   "property": "C70",
   "status": "proved",
   "theorems": [
    "Verif.Props.Mgis.c70_mandel",
    "Verif.Props.Mgis.c70_restrict",
    "Verif.Props.Mgis.c70_plane"
   ],
   "note": "Real arithmetic."
  },
  {
   "property": "C30",
   "status": "partial",
   "theorems": [
    "Verif.Props.SingleMesh.c30_segment",
    "Verif.Props.SingleMesh.c30_triangle",
    "Verif.Props.SingleMesh.c30_polygon",
    "Verif.Props.SingleMesh.c30_tetra_violation",
    "Verif.Props.SingleMesh.c30_quad_violation",
    "Verif.Props.SingleMesh.c30_hexa_violation"
   ],
   "note": "Violated by the tetrahedron (faces stored unsorted), the Cartesian quadrilateral (diagonals stored instead of two sides) and the Cartesian hexahedron (two faces enumerated in another order); the segment, the triangle and polygons of every size are proved."
  },
  {
   "property": "C51",
   "status": "proved",
   "theorems": [
    "Verif.Props.TriRefine.c51_refine",
    "Verif.Props.TriRefine.c51_boundary",
    "Verif.Props.TriRefine.c51_levels",
    "Verif.Props.TriRefine.c51_initial",
    "Verif.Props.TriRefine.c51_area",
    "Verif.Props.TriRefine.c51_unit_square",
    "Verif.Props.TriRefine.c51_orientation"
   ],
   "note": "Exact arithmetic."
  },
  {
   "property": "C71",
   "status": "proved",
   "theorems": [
    "Verif.Props.Hierarchy.c71_build",
    "Verif.Props.Hierarchy.c71_mesher"
   ],
   "note": "Exact arithmetic for the midpoints."
  },
  {
   "property": "C72",
   "status": "proved",
   "theorems": [
    "Verif.Props.Hierarchy.c72_locate"
   ],
   "note": "Exact arithmetic for the inside test; end to end from the conforming mesh."
  },
  {
   "property": "C73",
   "status": "partial",
   "theorems": [
    "Verif.Props.Hierarchy.c73_partial",
    "Verif.Props.Hierarchy.c73_hierarchy_violation",
    "Verif.Props.Hierarchy.c73_single_violation"
   ],
   "note": "Violated on every refined level of a hierarchy (subdomain_info is never resized) and by five single-element meshes; proved for the triangle mesher and the polygon."
  },
  {
   "property": "C31",
   "status": "proved",
   "theorems": [
    "Verif.Props.MeshFiles.c31_fvca6",
    "Verif.Props.MeshFiles.c31_poly3",
    "Verif.Props.MeshFiles.c31_poly2",
    "Verif.Props.MeshFiles.c31_lookup"
   ],
   "note": "For every result std::sort may produce."
  },
  {
   "property": "C32",
   "status": "partial",
   "theorems": [
    "Verif.Props.MeshFiles.c32_partial",
    "Verif.Props.MeshFiles.c32_violation",
    "Verif.Props.MeshFiles.c32_keyword"
   ],
   "note": "Violated by the Edges section: its node numbers are not shifted, for every file with at least one edge."
  },
  {
   "property": "C74",
   "status": "partial",
   "theorems": [
    "Verif.Props.PolyFile.c74_contents_partial",
    "Verif.Props.PolyFile.c74_dimension",
    "Verif.Props.PolyFile.c74_keyword",
    "Verif.Props.PolyFile.c74_start",
    "Verif.Props.PolyFile.c74_empty",
    "Verif.Props.PolyFile.c74_hang_violation",
    "Verif.Props.PolyFile.c74_ub_violation"
   ],
   "note": "Complete files are read exactly; every file whose end marker is missing after one or more sections makes the reader loop for ever or use uninitialised variables."
  },
  {
   "property": "C75",
   "status": "partial",
   "theorems": [
    "Verif.Props.PolyFile.c75_entities_partial",
    "Verif.Props.PolyFile.c75_cells_partial",
    "Verif.Props.PolyFile.c75_nodes_partial",
    "Verif.Props.PolyFile.c75_nodes_violation",
    "Verif.Props.PolyFile.c75_faces_violation"
   ],
   "note": "Edges, faces by edges and volumes by faces may be listed in any order; nodes and the vertices of faces and volumes are stored by position although they carry numbers, so another order gives wrong coordinates or wrong points."
  },
  {
   "property": "C27",
   "status": "proved",
   "theorems": [
    "Verif.Props.HexMesh.c27_tiles",
    "Verif.Props.HexMesh.c27_counts",
    "Verif.Props.HexMesh.c27_inside",
    "Verif.Props.HexMesh.c27_overflow"
   ],
   "note": "Levels up to 61; above, the side of the square overflows to zero and the recursion never ends (c27_overflow)."
  },
  {
   "property": "C28",
   "status": "proved",
   "theorems": [
    "Verif.Props.HexMesh.c28_owners",
    "Verif.Props.HexMesh.c28_boundary",
    "Verif.Props.HexMesh.c28_lists",
    "Verif.Props.HexMesh.c28_edges_proper"
   ],
   "note": "Levels up to 61."
  },
  {
   "property": "C76",
   "status": "proved",
   "theorems": [
    "Verif.Props.HexMesh.c76_cover",
    "Verif.Props.HexMesh.c76_disjoint",
    "Verif.Props.HexMesh.c76_convex"
   ],
   "note": "Levels up to 61; any ordered field."
  },
  {
   "property": "C77",
   "status": "proved",
   "theorems": [
    "Verif.Props.HexMesher.c77_containers",
    "Verif.Props.HexMesher.c77_geometry",
    "Verif.Props.HexMesher.c77_closed",
    "Verif.Props.HexMesher.c77_boundary",
    "Verif.Props.HexMesher.c77_overflow"
   ],
   "note": "Levels up to 61; coordinates in a field of characteristic zero, exact arithmetic."
  },
  {
   "property": "C78",
   "status": "proved",
   "theorems": [
    "Verif.Props.TetRefine.c78_initial",
    "Verif.Props.TetRefine.c78_refine",
    "Verif.Props.TetRefine.c78_boundary",
    "Verif.Props.TetRefine.c78_sort_independent",
    "Verif.Props.TetRefine.c78_levels"
   ],
   "note": "For every result std::sort may produce."
  },
  {
   "property": "C79",
   "status": "proved",
   "theorems": [
    "Verif.Props.TetRefine.c79_volume",
    "Verif.Props.TetRefine.c79_cube"
   ],
   "note": "Exact arithmetic for the midpoints."
  },
  {
   "property": "C80",
   "status": "partial",
   "theorems": [
    "Verif.Props.TetRefine.c80_length_partial",
    "Verif.Props.TetRefine.c80_cube_partial",
    "Verif.Props.TetRefine.c80_violation_level",
    "Verif.Props.TetRefine.c80_violation"
   ],
   "note": "Violated: the constructor of simplicial elements sorts the vertices, so the vertex order needed by the refinement rule is lost and the longest edge, relative to 2^-k, doubles at least every six levels. Proved instead: edges never grow and shrink by at least 3/4 every two levels."
  },
  {
   "property": "C81",
   "status": "proved",
   "theorems": [
    "Verif.Props.TetRefine.c81_refine",
    "Verif.Props.TetRefine.c81_cube"
   ],
   "note": "Any ordered field."
  },
  {
   "property": "C82",
   "status": "proved",
   "theorems": [
    "Verif.Props.HhoLaplacian.c82_relation",
    "Verif.Props.HhoLaplacian.c82_consistency",
    "Verif.Props.HhoLaplacian.c82_face_projection",
    "Verif.Props.HhoLaplacian.c82_energy",
    "Verif.Props.HhoLaplacian.c82_nonneg",
    "Verif.Props.HhoLaplacian.c82_info_relation",
    "Verif.Props.HhoLaplacian.c82_info_same"
   ],
   "note": "Exact arithmetic; quadrature exact on the degrees used; the factorisations solve symmetric non-singular systems. Consistency needs fd + 1 >= rd and cd + 2 >= rd."
  },
  {
   "property": "C83",
   "status": "proved",
   "theorems": [
    "Verif.Props.HhoLaplacian.c83_interpolation",
    "Verif.Props.HhoLaplacian.c83_round_trip"
   ],
   "note": "Exact arithmetic; di >= 1. For the default di = 0 the code integrates one degree less than needed for polynomials of the reconstruction degree."
  },
  {
   "property": "C84",
   "status": "proved",
   "theorems": [
    "Verif.Props.HhoStab.c84_hdg",
    "Verif.Props.HhoStab.c84_dg",
    "Verif.Props.HhoStab.c84_hho_info",
    "Verif.Props.HhoStab.c84_hho",
    "Verif.Props.HhoStab.c84_sym_nonneg",
    "Verif.Props.HhoStab.c84_sym_nonneg_hho"
   ],
   "note": "Exact arithmetic; the scaling of each overload is that of C86."
  },
  {
   "property": "C85",
   "status": "proved",
   "theorems": [
    "Verif.Props.HhoStab.c85_hho_of",
    "Verif.Props.HhoStab.c85_hho",
    "Verif.Props.HhoStab.c85_hho_info",
    "Verif.Props.HhoStab.c85_local_energy"
   ],
   "note": "Exact arithmetic; same hypotheses as C82."
  },
  {
   "property": "C86",
   "status": "partial",
   "theorems": [
    "Verif.Props.HhoStab.c86_cell_scaling_partial",
    "Verif.Props.HhoStab.c86_flag_ignored",
    "Verif.Props.HhoStab.c86_face_scaling_violated",
    "Verif.Props.HhoStab.c84_hdg",
    "Verif.Props.HhoStab.c84_dg",
    "Verif.Props.HhoStab.c84_hho_info"
   ],
   "note": "Violated by make_scalar_hho_stabilization with hho_degree_info: its last parameter is never read and the cell diameter is always used; make_vector_hho_stabilization_optim passes its documented hF there."
  },
  {
   "property": "C87",
   "status": "partial",
   "theorems": [
    "Verif.Props.HhoDegrees.c87_constructors_partial",
    "Verif.Props.HhoDegrees.c87_three_partial",
    "Verif.Props.HhoDegrees.c87_three_violated",
    "Verif.Props.HhoDegrees.c87_three_violated_witness",
    "Verif.Props.HhoDegrees.c87_mesh_same",
    "Verif.Props.HhoDegrees.c87_face_degree"
   ],
   "note": "Violated by the constructor with three degrees: the conditions are joined by ||, so exactly the requests with one wrong degree are accepted unchanged."
  },
  {
   "property": "C88",
   "status": "proved",
   "theorems": [
    "Verif.Props.HhoDegrees.c88_lhs",
    "Verif.Props.HhoDegrees.c88_grad",
    "Verif.Props.HhoDegrees.c88_grad_matrix"
   ],
   "note": "No arithmetic involved."
  },
  {
   "property": "C89",
   "status": "partial",
   "theorems": [
    "Verif.Props.HhoDegrees.c89_vector_partial",
    "Verif.Props.HhoDegrees.c89_vector_violated",
    "Verif.Props.HhoDegrees.c89_vector_violated_ndebug"
   ],
   "note": "Violated for every reconstruction degree other than fd + 1: the conversion to CellDegreeInfo resets it, so an assertion fails or, without assertions, memory outside the matrix is read or rows are dropped."
  },
  {
   "property": "C90",
   "status": "partial",
   "theorems": [
    "Verif.Props.Mech.c90_strain",
    "Verif.Props.Mech.c90_linearized_partial",
    "Verif.Props.Mech.c90_linearized_violated",
    "Verif.Props.Mech.c90_stress",
    "Verif.Props.Mech.c90_conjugate",
    "Verif.Props.Mech.c90_von_mises"
   ],
   "note": "Violated by convertGtoLinearizedStrain, which multiplies G by its transpose instead of adding: it agrees with the linearized strain exactly when G G^T = G + G^T. All other conversions proved."
  },
  {
   "property": "C91",
   "status": "proved",
   "theorems": [
    "Verif.Props.Mech.c91_parameters",
    "Verif.Props.Mech.c91_curve"
   ],
   "note": "Exact arithmetic."
  },
  {
   "property": "C92",
   "status": "partial",
   "theorems": [
    "Verif.Props.Mech.c92_first",
    "Verif.Props.Mech.c92_second2",
    "Verif.Props.Mech.c92_second3_partial",
    "Verif.Props.Mech.c92_second3_violated",
    "Verif.Props.Mech.c92_norm_violated"
   ],
   "note": "Violated by one of the 81 entries of the second derivative in 3D (right exactly when F(1,2) = F(2,1) or the rate of F(0,0) vanishes in the entry) and by NormFroFirstDerivate, wrong at every matrix with nonzero deviator."
  },
  {
   "property": "C93",
   "status": "proved",
   "theorems": [
    "Verif.Props.Plastic.c93_elasticity",
    "Verif.Props.Plastic.c93_linear"
   ],
   "note": "Exact arithmetic."
  },
  {
   "property": "C94",
   "status": "proved",
   "theorems": [
    "Verif.Props.Plastic.c94_step",
    "Verif.Props.Plastic.c94_unique",
    "Verif.Props.Plastic.c94_iterations"
   ],
   "note": "Exact arithmetic, so the trace checks of the code never fire."
  },
  {
   "property": "C95",
   "status": "proved",
   "theorems": [
    "Verif.Props.Plastic.c95_linear",
    "Verif.Props.Plastic.c95_linear_plane",
    "Verif.Props.PlasticCurve.c95_curve"
   ],
   "note": "On the yield surface itself and at corners of the curve the stress is not differentiable; these points are excluded."
  },
  {
   "property": "C96",
   "status": "partial",
   "theorems": [
    "Verif.Props.PlasticCurve.c96_step_partial",
    "Verif.Props.PlasticCurve.c96_unique",
    "Verif.Props.PlasticCurve.c96_empty",
    "Verif.Props.PlasticCurve.c96_usual",
    "Verif.Props.PlasticCurve.c96_one_point_violated"
   ],
   "note": "Violated for a curve with a single point, accepted by checkRpCurve: nb_point - 2 wraps around and the vector is read out of bounds. Proved for two or more points."
  },
  {
   "property": "C97",
   "status": "partial",
   "theorems": [
    "Verif.Props.Hencky.c97_origin",
    "Verif.Props.Hencky.c97_energy_partial",
    "Verif.Props.Hencky.c97_monotone_partial",
    "Verif.Props.Hencky.c97_energy_violated",
    "Verif.Props.Hencky.c97_tangent_violated"
   ],
   "note": "Violated in 3D (no stored energy exists, since the coefficients of the plane case are used) and by the modulus, which is the elastic one and is the derivative only at zero strain. Energy and monotonicity proved in 2D."
  },
  {
   "property": "C98",
   "status": "partial",
   "theorems": [
    "Verif.Props.Hyper.c98_stress",
    "Verif.Props.Hyper.c98_refused",
    "Verif.Props.Hyper.c98_reference",
    "Verif.Props.Hyper.c98_objective",
    "Verif.Props.Hyper.c98_energy_partial",
    "Verif.Props.Hyper.c98_energy_violated",
    "Verif.Props.Hyper.c98_plane"
   ],
   "note": "Violated by compute_energy for type 4, which evaluates 1/(1-J) instead of 1-1/J. compute_energy calls convertFtoCauchyGreenRight unqualified, which does not compile when instantiated; it is modelled as the qualified call. The constructors of MaterialData with parameters set type 0, for which the law throws."
  },
  {
   "property": "C99",
   "status": "partial",
   "theorems": [
    "Verif.Props.Hyper.c99_stress",
    "Verif.Props.Hyper.c99_plane",
    "Verif.Props.Hyper.c99_objective",
    "Verif.Props.Hyper.c99_energy_partial",
    "Verif.Props.Hyper.c99_energy_violated",
    "Verif.Props.Hyper.c99_reference_violated"
   ],
   "note": "Violated by compute_energy for type 4 and by the undeformed state, which carries the stress mu (1/sqrt 3 - 1) I."
  },
  {
   "property": "C100",
   "status": "partial",
   "theorems": [
    "Verif.Props.LogStrain.c100_coefficients_partial",
    "Verif.Props.LogStrain.c100_violated"
   ],
   "note": "Violated when the two larger eigenvalues coincide and the smallest differs: derivatives are taken at the smallest. Proved otherwise, for eigenvalues that are equal whenever they compare almost equal."
  },
  {
   "property": "C101",
   "status": "partial",
   "theorems": [
    "Verif.Props.LogStrain.c101_strain",
    "Verif.Props.LogStrain.c101_refused",
    "Verif.Props.LogStrain.c101_conjugate",
    "Verif.Props.LogStrain.c101_stress_partial",
    "Verif.Props.LogStrain.c101_stress_isotropic",
    "Verif.Props.LogStrain.c101_energy",
    "Verif.Props.LogStrain.c101_objective",
    "Verif.Props.LogStrain.c101_stress_violated"
   ],
   "note": "Violated for stresses not coaxial with the strain when the two larger stretches coincide. Proved for isotropic small strain laws everywhere, and for all laws elsewhere. The eigensolver is any function with the documented properties."
  },
  {
   "property": "C102",
   "status": "partial",
   "theorems": [
    "Verif.Props.LogStrain.c102_tangent_partial",
    "Verif.Props.LogStrain.c102_plane_partial",
    "Verif.Props.LogStrain.c102_tangent_violated"
   ],
   "note": "Violated by linear elasticity when the two larger stretches coincide (stretches 1, 2, 2). Proved elsewhere."
  },
  {
   "property": "C103",
   "status": "proved",
   "theorems": [
    "Verif.Props.Cfem.c103_basis",
    "Verif.Props.Cfem.c103_nodal",
    "Verif.Props.Cfem.c103_grad",
    "Verif.Props.Cfem.c103_degenerate"
   ],
   "note": "Exact arithmetic."
  },
  {
   "property": "C104",
   "status": "proved",
   "theorems": [
    "Verif.Props.Cfem.c104_mass",
    "Verif.Props.Cfem.c104_stiffness",
    "Verif.Props.Cfem.c104_stiffness_tensor",
    "Verif.Props.Cfem.c104_rhs_const",
    "Verif.Props.Cfem.c104_rhs_affine"
   ],
   "note": "Exact arithmetic."
  },
  {
   "property": "C105",
   "status": "partial",
   "theorems": [
    "Verif.Props.NewtonParams.c105_file_partial",
    "Verif.Props.NewtonParams.c105_unknown",
    "Verif.Props.NewtonParams.c105_logical",
    "Verif.Props.NewtonParams.c105_begin",
    "Verif.Props.NewtonParams.c105_cut_violated",
    "Verif.Props.NewtonParams.c105_number_violated"
   ],
   "note": "Violated: a file whose last line is missing, or with a word in place of a number, makes readParameters loop (until the line counter overflows). Proved for complete files and for unknown keywords."
  },
  {
   "property": "C106",
   "status": "partial",
   "theorems": [
    "Verif.Props.NewtonParams.c106_getters_partial",
    "Verif.Props.NewtonParams.c106_getter_violated",
    "Verif.Props.NewtonParams.c106_degrees_partial",
    "Verif.Props.NewtonParams.c106_quadrature_violated",
    "Verif.Props.NewtonParams.c106_cell_violated",
    "Verif.Props.NewtonParams.c106_stab_partial",
    "Verif.Props.NewtonParams.c106_stab_violated"
   ],
   "note": "Violated: getGradDegree returns the face degree; the quadrature uses the requested gradient degree, not the corrected one; face degree 0 with cell degree -1 is accepted; the stabilization NO, which a file can name, is not assembled (throw, or read out of bounds)."
  },
  {
   "property": "C107",
   "status": "partial",
   "theorems": [
    "Verif.Props.Newton.c107_converged_partial",
    "Verif.Props.Newton.c107_unchanged",
    "Verif.Props.Newton.c107_bound",
    "Verif.Props.Newton.c107_nan_violated",
    "Verif.Props.Newton.c107_nan_incr",
    "Verif.Props.Newton.c107_eps_violated",
    "Verif.Props.Newton.c107_solve_violated"
   ],
   "note": "Violated: std::max drops a NaN residual, which is then accepted; a tolerance of 1 or more accepts the first iteration unsolved; an exception of the linear solver is not caught. Proved for finite norms, nonzero forces and displacements above 1e-14."
  },
  {
   "property": "C108",
   "status": "partial",
   "theorems": [
    "Verif.Props.Newton.c108_displ",
    "Verif.Props.Newton.c108_rest_partial",
    "Verif.Props.Newton.c108_acce_violated",
    "Verif.Props.Newton.c108_rest_violated",
    "Verif.Props.Newton.c108_velo_violated",
    "Verif.Props.Newton.c108_defect",
    "Verif.Props.Newton.c108_sign_violated"
   ],
   "note": "Violated: the acceleration is computed from the last increment only, the velocity ignores gamma and the old acceleration, the predictor has the wrong factor for the old acceleration and enters the system with the wrong sign. Proved from rest with one iteration (velocity for gamma = 1)."
  },
  {
   "property": "C109",
   "status": "partial",
   "theorems": [
    "Verif.Props.Newton.c109_loop_partial",
    "Verif.Props.Newton.c109_save_partial",
    "Verif.Props.Newton.c109_split_violated",
    "Verif.Props.Newton.c109_save_violated"
   ],
   "note": "Violated: a negative number of sublevels splits without end, and of several save times within one step only the first is saved. Proved for sublevels that are not negative; times are saved in order, each with a step that reaches it."
  },
  {
   "property": "C110",
   "status": "proved",
   "theorems": [
    "Verif.Props.Rigidity.c110_lines",
    "Verif.Props.Rigidity.c110_measure",
    "Verif.Props.Rigidity.c110_forces",
    "Verif.Props.Rigidity.c110_rigidity",
    "Verif.Props.Rigidity.c110_symmetric",
    "Verif.Props.Rigidity.c110_tangent"
   ],
   "note": "Over exact reals, without contact; the behavior is a function of the strain with symmetric tangent, and in small deformations symmetric stress. The stabilization coefficient is the one of the step."
  },
  {
   "property": "C111",
   "status": "partial",
   "theorems": [
    "Verif.Props.Rigidity.c111_range_partial",
    "Verif.Props.Rigidity.c111_uniform",
    "Verif.Props.Rigidity.c111_range_violated",
    "Verif.Props.Rigidity.c111_frozen",
    "Verif.Props.Rigidity.c111_update",
    "Verif.Props.Rigidity.c111_keep",
    "Verif.Props.Rigidity.c111_set_violated"
   ],
   "note": "Violated: the lower bound in the code is beta/10000 where its comment says beta/1000, and setValue is lost at the next update. Proved with the range of the code and for setValueNext."
  },
  {
   "property": "C112",
   "status": "partial",
   "theorems": [
    "Verif.Props.Slapl.c112_operator",
    "Verif.Props.Slapl.c112_consistency",
    "Verif.Props.Slapl.c112_large_cell_degree_ub",
    "Verif.Props.Slapl.c112_reduction",
    "Verif.Props.Slapl.c112_round_trip_partial",
    "Verif.Props.Slapl.c112_round_trip_violated",
    "Verif.Props.Slapl.c112_degree_info"
   ],
   "note": "Violated: for a cell degree one less than the face degree the rule used by local_reduction is not exact, so reduction and reconstruction do not reproduce polynomials of the reconstruction degree; a cell degree larger than the reconstruction degree takes a block outside the matrix. Proved for cell degrees f and f+1."
  },
  {
   "property": "C113",
   "status": "partial",
   "theorems": [
    "Verif.Props.Slapl.c113_hho",
    "Verif.Props.Slapl.c113_sym_nonneg",
    "Verif.Props.Slapl.c113_vanishes",
    "Verif.Props.Slapl.c113_hdg_partial",
    "Verif.Props.Slapl.c113_hdg_violated"
   ],
   "note": "Violated: local_stabilization_hdg is not divided by the diameter. local_stabilization is proved."
  },
  {
   "property": "C114",
   "status": "partial",
   "theorems": [
    "Verif.Props.Dga.c114_exact",
    "Verif.Props.Dga.c114_grad",
    "Verif.Props.Dga.c114_stokes",
    "Verif.Props.Dga.c114_normals",
    "Verif.Props.Dga.c114_edge_normals_partial",
    "Verif.Props.Dga.c114_edge_normals_violated",
    "Verif.Props.Dga.c114_dual_edges_partial",
    "Verif.Props.Dga.c114_dual_edges_violated"
   ],
   "note": "Violated: the second and third normals of a triangle point inward, and for its second and third edge cross(pev, dev) points into the volume, on every nondegenerate element. The rest is proved."
  },
  {
   "property": "C115",
   "status": "proved",
   "theorems": [
    "Verif.Props.Dga.c115_duality",
    "Verif.Props.Dga.c115_orientation",
    "Verif.Props.Dga.c115_closed"
   ],
   "note": "Exact arithmetic."
  },
  {
   "property": "C116",
   "status": "partial",
   "theorems": [
    "Verif.Props.Dga.c116_consistent_partial",
    "Verif.Props.Dga.c116_tensor_violated",
    "Verif.Props.Dga.c116_spd",
    "Verif.Props.Dga.c116_scalar",
    "Verif.Props.Dga.c116_diffusion",
    "Verif.Props.Dga.c116_maxwell",
    "Verif.Props.Dga.c116_field"
   ],
   "note": "Violated for tensors without symmetry: half of the matrix is mirrored, so constant fields are not reproduced. Proved for scalars and symmetric tensors."
  },
  {
   "property": "C117",
   "status": "partial",
   "theorems": [
    "Verif.Props.HhoVector.c117_relation",
    "Verif.Props.HhoVector.c117_documented_partial",
    "Verif.Props.HhoVector.c117_documented_violated",
    "Verif.Props.HhoVector.c117_commutes",
    "Verif.Props.HhoVector.c117_exact",
    "Verif.Props.HhoVector.c117_energy",
    "Verif.Props.HhoVector.c117_field",
    "Verif.Props.HhoVector.c117_nonneg"
   ],
   "note": "Violated for faces without unknowns: the code adds the cell term on the whole boundary (integration by parts) but face terms only where there are unknowns, as if the face value were zero. Proved when every face has unknowns."
  },
  {
   "property": "C118",
   "status": "proved",
   "theorems": [
    "Verif.Props.HhoVector.c118_relation",
    "Verif.Props.HhoVector.c118_components",
    "Verif.Props.HhoVector.c118_trace",
    "Verif.Props.HhoVector.c118_commutes",
    "Verif.Props.HhoVector.c118_exact",
    "Verif.Props.HhoVector.c118_energy"
   ],
   "note": "Exact arithmetic and exact rules."
  },
  {
   "property": "C119",
   "status": "proved",
   "theorems": [
    "Verif.Props.HhoVector.c119_mass",
    "Verif.Props.HhoVector.c119_relation",
    "Verif.Props.HhoVector.c119_components",
    "Verif.Props.HhoVector.c119_gradients",
    "Verif.Props.HhoVector.c119_commutes",
    "Verif.Props.HhoVector.c119_exact",
    "Verif.Props.HhoVector.c119_energy"
   ],
   "note": "Exact arithmetic and exact rules."
  },
  {
   "property": "C120",
   "status": "partial",
   "theorems": [
    "Verif.Props.HhoCurl.c120_relation_partial",
    "Verif.Props.HhoCurl.c120_jumps_partial",
    "Verif.Props.HhoCurl.c120_commutes_partial",
    "Verif.Props.HhoCurl.c120_exact_partial",
    "Verif.Props.HhoCurl.c120_energy_partial",
    "Verif.Props.HhoCurl.c120_singular",
    "Verif.Props.HhoCurl.c120_violated"
   ],
   "note": "Violated for degrees such as hho_degree_info(0, 1), accepted by the constructor: the mass matrix of the reconstruction degree is integrated by the rule of degree 2 * celdeg + 2, and is singular when the rule has fewer points than there are functions. Proved for reconstruction degrees up to celdeg + 1."
  },
  {
   "property": "C121",
   "status": "proved",
   "theorems": [
    "Verif.Props.HhoCurl.c121_kernel",
    "Verif.Props.HhoCurl.c121_kernel_cube",
    "Verif.Props.HhoCurl.c121_relation",
    "Verif.Props.HhoCurl.c121_commutes",
    "Verif.Props.HhoCurl.c121_energy",
    "Verif.Props.HhoCurl.c121_plane"
   ],
   "note": "FullPivLU is any function that solves every solvable system. Cell degree at most the reconstruction degree (beyond, a block outside the matrix is taken)."
  },
  {
   "property": "C122",
   "status": "proved",
   "theorems": [
    "Verif.Props.HhoCurl.c122_form",
    "Verif.Props.HhoCurl.c122_kernel",
    "Verif.Props.HhoCurl.c122_nonneg",
    "Verif.Props.HhoCurl.c122_plane",
    "Verif.Props.HhoCurl.c122_mass"
   ],
   "note": "Exact arithmetic and exact rules."
  },
  {
   "property": "C123",
   "status": "partial",
   "theorems": [
    "Verif.Props.HhoCurl.c123_tangent",
    "Verif.Props.HhoCurl.c123_maxwell_partial",
    "Verif.Props.HhoCurl.c123_maxwell_violated"
   ],
   "note": "Violated by maxwell_prj: the face unknowns are computed with the points of the cell; for the field (z, 0, 0) on the unit cube the unknown of the face z = 0 is 1/2 instead of 0. project_tangent and the cell unknowns of maxwell_prj are proved."
  },
  {
   "property": "C124",
   "status": "partial",
   "theorems": [
    "Verif.Props.VectorAsm.c124_mechanics",
    "Verif.Props.VectorAsm.c124_table_partial",
    "Verif.Props.VectorAsm.c124_cell",
    "Verif.Props.VectorAsm.c124_bijection",
    "Verif.Props.VectorAsm.c124_signorini_violated",
    "Verif.Props.VectorAsm.c124_contact_dirichlet_violated"
   ],
   "note": "Violated for contact faces in the two later classes: with type SIGNORINI no unknowns are reserved, but the coefficients are numbered, so they share the numbers of the next face; with SIGNORINI_FACE and a Dirichlet condition numbers remain unused. Proved when contact faces are of type SIGNORINI_FACE without Dirichlet condition or have no face unknowns; unconditional for assembler_mechanics."
  },
  {
   "property": "C125",
   "status": "partial",
   "theorems": [
    "Verif.Props.VectorAsm.c125_residual_partial",
    "Verif.Props.VectorAsm.c125_mechanics",
    "Verif.Props.VectorAsm.c125_signorini_violated"
   ],
   "note": "Violated with a contact face of type SIGNORINI (shared rows, see C124). Otherwise proved."
  },
  {
   "property": "C126",
   "status": "partial",
   "theorems": [
    "Verif.Props.VectorAsm.c126_local",
    "Verif.Props.VectorAsm.c126_expand",
    "Verif.Props.VectorAsm.c126_solved_partial",
    "Verif.Props.VectorAsm.c126_increment"
   ],
   "note": "Proved given the table of C124; the statement on the solved system fails with contact faces of type SIGNORINI (c125_signorini_violated) and is proved without them."
  },
  {
   "property": "C127",
   "status": "partial",
   "theorems": [
    "Verif.Props.VectorAsm.c127_neumann_partial",
    "Verif.Props.VectorAsm.c127_mechanics_partial",
    "Verif.Props.VectorAsm.c127_dx_violated",
    "Verif.Props.VectorAsm.c127_range_violated",
    "Verif.Props.VectorAsm.c127_dy_violated",
    "Verif.Props.VectorAsm.c127_overwrite_violated"
   ],
   "note": "Violated when some components of a Neumann face are prescribed: the index does not account for the eliminated coefficients, so the load goes to another row or behind the end; with y prescribed the right-hand side is overwritten (assembler_mechanics) or the load on z goes to the row of x. Proved for Neumann faces without Dirichlet condition and the lowest-order cases where the index is right."
  },
  {
   "property": "C128",
   "status": "partial",
   "theorems": [
    "Verif.Props.StokesAsm.c128_numbering",
    "Verif.Props.StokesAsm.c128_residual_partial",
    "Verif.Props.StokesAsm.c128_alg_partial",
    "Verif.Props.StokesAsm.c128_component_violated",
    "Verif.Props.StokesAsm.c128_clamped_violated"
   ],
   "note": "Violated: a Dirichlet condition on single components fails the assertion of the constructor, and clamped faces get the boundary function instead of zero. Proved with the projected boundary function at all faces of the types DIRICHLET, CLAMPED and (2D) DXDY."
  },
  {
   "property": "C129",
   "status": "partial",
   "theorems": [
    "Verif.Props.StokesAsm.c129_velocity",
    "Verif.Props.StokesAsm.c129_pressure",
    "Verif.Props.StokesAsm.c129_momentum_partial",
    "Verif.Props.StokesAsm.c129_divergence_partial",
    "Verif.Props.StokesAsm.c129_mean_partial",
    "Verif.Props.StokesAsm.c129_projection_violated",
    "Verif.Props.StokesAsm.c129_clamped_violated"
   ],
   "note": "Violated for assemble: it eliminates the projection with extra quadrature degree face_degree, take_velocity returns the one with extra degree 2. Proved when both projections agree (assemble_alg, stokes_assembler_alg)."
  },
  {
   "property": "C130",
   "status": "partial",
   "theorems": [
    "Verif.Props.ScalarAsm.c130_residual_partial",
    "Verif.Props.ScalarAsm.c130_boundary_terms",
    "Verif.Props.ScalarAsm.c130_neumann_conflict",
    "Verif.Props.ScalarAsm.c130_robin_conflict",
    "Verif.Props.ScalarAsm.c130_table_partial",
    "Verif.Props.ScalarAsm.c130_counts_partial",
    "Verif.Props.ScalarAsm.c130_count_violated"
   ],
   "note": "Violated for scalar_primal_hho_assembler: it takes the number of Dirichlet faces from the counter of the boundary object, which counts a face twice when its condition is set twice (C18), and the constructor fails. Proved for histories that set the Dirichlet condition of each face at most once, and for all histories for diffusion_condensed_assembler."
  },
  {
   "property": "C131",
   "status": "partial",
   "theorems": [
    "Verif.Props.ScalarAsm.c131_local",
    "Verif.Props.ScalarAsm.c131_expand",
    "Verif.Props.ScalarAsm.c131_solved_partial",
    "Verif.Props.ScalarAsm.c131_converse_partial"
   ],
   "note": "As C130: exact counters are assumed for scalar_primal_hho_assembler."
  },
  {
   "property": "C132",
   "status": "partial",
   "theorems": [
    "Verif.Props.Behavior.c132_accepts",
    "Verif.Props.Behavior.c132_refuses",
    "Verif.Props.Behavior.c132_distinct",
    "Verif.Props.Behavior.c132_names",
    "Verif.Props.Behavior.c132_mesh_partial",
    "Verif.Props.Behavior.c132_empty",
    "Verif.Props.Behavior.c132_stable",
    "Verif.Props.Behavior.c132_alias_violated",
    "Verif.Props.Behavior.c132_count_violated"
   ],
   "note": "Violated for large numbers: cell numbers and counts pass through int, so cell 2^32 is answered with cell 0 and 2^31 points are counted as 2^64 - 2^31. Proved below. MFRONT (needs MGIS) is not modelled."
  },
  {
   "property": "C133",
   "status": "proved",
   "theorems": [
    "Verif.Props.Behavior.c133_frame",
    "Verif.Props.Behavior.c133_own",
    "Verif.Props.Behavior.c133_laws3",
    "Verif.Props.Behavior.c133_laws2",
    "Verif.Props.Behavior.c133_history",
    "Verif.Props.Behavior.c133_result",
    "Verif.Props.Behavior.c133_store3",
    "Verif.Props.Behavior.c133_store2"
   ],
   "note": "Cell numbers below 2^31, exact arithmetic; MFRONT not modelled."
  },
  {
   "property": "C134",
   "status": "partial",
   "theorems": [
    "Verif.Props.Behavior.c134_read3",
    "Verif.Props.Behavior.c134_read2_partial",
    "Verif.Props.Behavior.c134_hencky_violated",
    "Verif.Props.Behavior.c134_fresh_violated"
   ],
   "note": "Violated by HENCKY_MISES in 2D (the norm of the deviator is taken of the 2x2 block in one place, of the 3x3 matrix in the other) and, before the first evaluation, by the laws of F_DEF (the initial deformation gradient is zero, so reading the stress throws). Proved for the other cases."
  },
  {
   "property": "C135",
   "status": "partial",
   "theorems": [
    "Verif.Props.Behavior.c135_independent",
    "Verif.Props.Behavior.c135_failed_step",
    "Verif.Props.Behavior.c135_success",
    "Verif.Props.Behavior.c135_stress_partial",
    "Verif.Props.Behavior.c135_abandoned_violated"
   ],
   "note": "Violated when the solver gives up: the displacement is the last converged one, the stress read from the points is that of the abandoned iterate. Proved for success and for the retries. Exceptions of the linear solver are outside the model."
  },
  {
   "property": "C136",
   "status": "partial",
   "theorems": [
    "Verif.Props.MeshFile.c136_load_partial",
    "Verif.Props.MeshFile.c136_subdomain_violated",
    "Verif.Props.MeshFile.c136_interface_violated"
   ],
   "note": "Violated: the numbers of the triangles are read and dropped (all subdomains are 0), and listed edges between two triangles are not marked internal. Proved for points, triangles, edges and boundary numbers."
  },
  {
   "property": "C137",
   "status": "proved",
   "theorems": [
    "Verif.Props.MeshFile.c137_load",
    "Verif.Props.MeshFile.c137_subdomain"
   ],
   "note": "Files as token lists, exact coordinates; the last statement for files without repeated tetrahedra."
  },
  {
   "property": "C138",
   "status": "partial",
   "theorems": [
    "Verif.Props.MeshFile.c138_refused_partial",
    "Verif.Props.MeshFile.c138_face_partial",
    "Verif.Props.MeshFile.c138_overflow_partial",
    "Verif.Props.MeshFile.c138_missing_violated",
    "Verif.Props.MeshFile.c138_edge_violated",
    "Verif.Props.MeshFile.c138_truncated_violated",
    "Verif.Props.MeshFile.c138_zero_violated",
    "Verif.Props.MeshFile.c138_threecells_violated"
   ],
   "note": "Violated: a missing file is undefined behaviour for three of the four loaders, a truncated file is read as zeros, corner number 0 of a Netgen file becomes point 2^64 - 1, an unknown boundary edge in 2D is ignored with true as result, three tetrahedra at a face fail an assertion. Proved for empty names, missing files (quadrangles) and unknown faces (tetrahedra)."
  },
  {
   "property": "C139",
   "status": "partial",
   "theorems": [
    "Verif.Props.MeshFile.c139_quad_partial",
    "Verif.Props.MeshFile.c139_hex_partial",
    "Verif.Props.MeshFile.c139_shared",
    "Verif.Props.MeshFile.c139_domain_violated",
    "Verif.Props.MeshFile.c139_orientation_violated"
   ],
   "note": "Violated: subdomain entries are not created, so domain_info fails its assertion; a boundary edge listed from the larger to the smaller corner index is not found, which is not reported. The rest is proved."
  },
  {
   "property": "C140",
   "status": "proved",
   "theorems": [
    "Verif.Props.QuadRefine.c140_refine",
    "Verif.Props.QuadRefine.c140_boundary",
    "Verif.Props.QuadRefine.c140_unit_square"
   ],
   "note": "Exact arithmetic."
  },
  {
   "property": "C141",
   "status": "partial",
   "theorems": [
    "Verif.Props.QuadRefine.c141_measure_partial",
    "Verif.Props.QuadRefine.c141_quadrature",
    "Verif.Props.QuadRefine.c141_hexface",
    "Verif.Props.QuadRefine.c141_hex_violated",
    "Verif.Props.QuadRefine.c141_hex_never"
   ],
   "note": "Violated: measure of a 3D cell asserts that the cell has four points, so it fails on every hexahedron. Proved for 2D cells, faces in 2D and 3D, and 2D quadratures."
  },
  {
   "property": "C142",
   "status": "partial",
   "theorems": [
    "Verif.Props.VemDofs.c142_numbering",
    "Verif.Props.VemDofs.c142_shared",
    "Verif.Props.VemDofs.c142_count",
    "Verif.Props.VemDofs.c142_boundary",
    "Verif.Props.VemDofs.c142_degree",
    "Verif.Props.VemDofs.c142_ccw_violated",
    "Verif.Props.VemDofs.c142_recompute_violated"
   ],
   "note": "Violated: triangles are walked in the order of their point numbers, clockwise for some, contrary to the documentation; recompute keeps all answers of the first degree because nothing is cleared. The rest is proved."
  },
  {
   "property": "C143",
   "status": "partial",
   "theorems": [
    "Verif.Props.Vem.c143_parts",
    "Verif.Props.Vem.c143_laplacian",
    "Verif.Props.Vem.c143_consistency",
    "Verif.Props.Vem.c143_projection",
    "Verif.Props.Vem.c143_linear",
    "Verif.Props.Vem.c143_linear_partial",
    "Verif.Props.Vem.c143_linear_violated"
   ],
   "note": "Violated for degree one: the first row of matrix_G is the mean over the cell, that of matrix_B the mean over the vertices, so the projection of a linear function is off by the difference of its means (-1/5 for a coordinate on the unit square with one hanging node). Proved for degrees from two on, and for degree one where the means agree."
  },
  {
   "property": "C144",
   "status": "partial",
   "theorems": [
    "Verif.Props.Vem.c144_guard",
    "Verif.Props.Vem.c144_symmetric",
    "Verif.Props.Vem.c144_patch",
    "Verif.Props.Vem.c144_energy",
    "Verif.Props.Vem.c144_kernel",
    "Verif.Props.Vem.c144_linear",
    "Verif.Props.Vem.c144_linear_violated"
   ],
   "note": "Violated for degree one: the energy of a linear function is too large by the number of vertices times the squared difference of its two means, so the patch test fails. Symmetry, sign and kernel are proved for all degrees, the patch test from degree two on."
  },
  {
   "property": "C145",
   "status": "partial",
   "theorems": [
    "Verif.Props.Vem.c145_load",
    "Verif.Props.Vem.c145_moments",
    "Verif.Props.Vem.c145_projection_partial",
    "Verif.Props.Vem.c145_cut",
    "Verif.Props.Vem.c145_violated",
    "Verif.Props.Vem.c145_lowest"
   ],
   "note": "Violated for polynomials of degree k: the moments of degree k-1 are taken of the gradient projection without its terms of degree k. Proved for polynomials of degree k-1, for the moments up to degree k-2 and for the load."
  },
  {
   "property": "C146",
   "status": "partial",
   "theorems": [
    "Verif.Props.VemSystem.c146_marks",
    "Verif.Props.VemSystem.c146_guard",
    "Verif.Props.VemSystem.c146_compress",
    "Verif.Props.VemSystem.c146_system",
    "Verif.Props.VemSystem.c146_solvable",
    "Verif.Props.VemSystem.c146_local",
    "Verif.Props.VemSystem.c146_guard_violated"
   ],
   "note": "Violated: the assertion that the number of marks is degree times the number of boundary faces fails if the boundary touches itself in a point or if interfaces between subdomains are marked as boundary. It holds exactly if the boundary has as many points as faces; then the rest is proved."
  },
  {
   "property": "C147",
   "status": "proved",
   "theorems": [
    "Verif.Props.GrundMoeller.c147_compositions",
    "Verif.Props.GrundMoeller.c147_size",
    "Verif.Props.GrundMoeller.c147_exact",
    "Verif.Props.GrundMoeller.c147_inside",
    "Verif.Props.GrundMoeller.c147_tetra",
    "Verif.Props.GrundMoeller.c147_weights",
    "Verif.Props.GrundMoeller.c147_tri",
    "Verif.Props.GrundMoeller.c147_overflow",
    "Verif.Props.GrundMoeller.c147_negative"
   ],
   "note": "Exact arithmetic; the integral over a simplex is the iterated integral over the reference simplex times the Jacobian."
  },
  {
   "property": "C148",
   "status": "partial",
   "theorems": [
    "Verif.Props.Polyhedron.c148_apex",
    "Verif.Props.Polyhedron.c148_measure_partial",
    "Verif.Props.Polyhedron.c148_tetra",
    "Verif.Props.Polyhedron.c148_exact",
    "Verif.Props.Polyhedron.c148_degree0",
    "Verif.Props.Polyhedron.c148_few",
    "Verif.Props.Polyhedron.c148_nonconvex"
   ],
   "note": "Violated: the volumes of the tetrahedra from the vertex mean are added with their absolute values, so a prism of volume 3 over a chevron has measure 6. Proved for convex cells; quadrature and measure agree on all cells."
  },
  {
   "property": "C149",
   "status": "proved",
   "theorems": [
    "Verif.Props.Arbq.c149_size",
    "Verif.Props.Arbq.c149_exact",
    "Verif.Props.Arbq.c149_weights",
    "Verif.Props.Arbq.c149_inside",
    "Verif.Props.Arbq.c149_degree",
    "Verif.Props.Arbq.c149_wrap"
   ],
   "note": "The tables are arbitrary numbers within half an ulp of the literals; arithmetic after the lookup is exact, tolerances 4e-14 and 1e-15."
  },
  {
   "property": "C150",
   "status": "partial",
   "theorems": [
    "Verif.Props.Obstacle.c150_system",
    "Verif.Props.Obstacle.c150_surj",
    "Verif.Props.Obstacle.c150_degree"
   ],
   "note": "Violated for cell degree 1 and more: gamma has one entry per cell and cannot be assigned to the block of alpha, so expand_solution fails. Proved for cell degree 0, the only one the solvers use."
  },
  {
   "property": "C151",
   "status": "partial",
   "theorems": [
    "Verif.Props.Obstacle.c151_stop_partial",
    "Verif.Props.Obstacle.c151_fixed",
    "Verif.Props.Obstacle.c151_positive_violated"
   ],
   "note": "Violated for positive obstacles: the first iterate is compared with zero, so the solver can stop below the obstacle. Proved for obstacles that are not positive (the program has 0). A loop that ends at maxiter is not told apart in the code."
  },
  {
   "property": "C152",
   "status": "partial",
   "theorems": [
    "Verif.Props.Fvca5.c152_read_partial",
    "Verif.Props.Fvca5.c152_determined",
    "Verif.Props.Fvca5.c152_data",
    "Verif.Props.Fvca5.c152_refuse_header",
    "Verif.Props.Fvca5.c152_refuse_edge",
    "Verif.Props.Fvca5.c152_refuse_short",
    "Verif.Props.Fvca5.c152_corner_violated",
    "Verif.Props.Fvca5.c152_domain_violated",
    "Verif.Props.Fvca5.c152_order_violated",
    "Verif.Props.Fvca5.c152_short_violated"
   ],
   "note": "Violated: corners of polygons are not tested (0 becomes 2^64-1), domain numbers that do not fit become 2^64-1, polygon lines with too few corners use an uninitialised variable, and an edge naming a polygon not yet read throws out_of_range. Reading of well formed files, the facts about all data and the other refusals are proved."
  },
  {
   "property": "C153",
   "status": "partial",
   "theorems": [
    "Verif.Props.Fvca5.c153_load_partial",
    "Verif.Props.Fvca5.c153_refused",
    "Verif.Props.Fvca5.c153_missing_violated",
    "Verif.Props.Fvca5.c153_twice_violated",
    "Verif.Props.Fvca5.c153_three_violated"
   ],
   "note": "Violated: load_mesh drops the value of populate_mesh, so a boundary edge that is no edge gives true and a mesh without edges and cells; edges given twice are kept twice; three polygons at an edge fail an assertion. Proved for files without these defects."
  },
  {
   "property": "C154",
   "status": "partial",
   "theorems": [
    "Verif.Props.Medit.c154_load_partial",
    "Verif.Props.Medit.c154_refuse",
    "Verif.Props.Medit.c154_noend_violated",
    "Verif.Props.Medit.c154_orphan_violated",
    "Verif.Props.Medit.c154_reference_violated",
    "Verif.Props.Medit.c154_corner_violated"
   ],
   "note": "Violated: without End the keyword of the last block is used again and its count is not initialised; a boundary edge that is no side gives true and a mesh without edges and cells; numbers of polygons are dropped; equal corners fail an assertion, node zero becomes 2^64-1, a second block of vertices repeats node numbers. Proved for files without these defects."
  },
  {
   "property": "C155",
   "status": "partial",
   "theorems": [
    "Verif.Props.Medit.c155_load_partial",
    "Verif.Props.Medit.c155_refuse",
    "Verif.Props.Medit.c155_value_violated",
    "Verif.Props.Medit.c155_range_violated"
   ],
   "note": "Violated: populate_mesh returns false on success; references out of range and early ends are undefined behaviour; a word for the number of edges is taken for zero. Proved for files without these defects."
  },
  {
   "property": "C156",
   "status": "proved",
   "theorems": [
    "Verif.Props.GolubWelsch.c156_golub_welsch",
    "Verif.Props.GolubWelsch.c156_edge",
    "Verif.Props.GolubWelsch.c156_cell",
    "Verif.Props.GolubWelsch.c156_face"
   ],
   "note": "Exact arithmetic; the eigenvalue solver is a parameter assumed to solve symmetric problems (such a solver is shown to exist)."
  },
  {
   "property": "C157",
   "status": "partial",
   "theorems": [
    "Verif.Props.Gmsh.c157_load_partial",
    "Verif.Props.Gmsh.c157_refuse",
    "Verif.Props.Gmsh.c157_crowded",
    "Verif.Props.Gmsh.c157_dangling",
    "Verif.Props.Gmsh.c157_id_violated",
    "Verif.Props.Gmsh.c157_quadrangle_violated"
   ],
   "note": "Violated: the identifier of a subdomain is the number of the triangle within its surface instead of the number of the surface; quadrangles are not refused but cut to their first three corners. Everything else is proved for meshes of triangles."
  },
  {
   "property": "C158",
   "status": "partial",
   "theorems": [
    "Verif.Props.Gmsh.c158_load_partial",
    "Verif.Props.Gmsh.c158_refuse",
    "Verif.Props.Gmsh.c158_crowded",
    "Verif.Props.Gmsh.c158_dangling",
    "Verif.Props.Gmsh.c158_id_violated",
    "Verif.Props.Gmsh.c158_hexahedron_violated"
   ],
   "note": "Violated: the identifier of a subdomain is the number of the tetrahedron within its volume instead of the number of the volume; hexahedra are not refused but cut to their first four corners. Everything else is proved for meshes of tetrahedra."
  },
  {
   "property": "C159",
   "status": "partial",
   "theorems": [
    "Verif.Props.GmshPrism.c159_load_partial",
    "Verif.Props.GmshPrism.c159_refuse",
    "Verif.Props.GmshPrism.c159_crowded",
    "Verif.Props.GmshPrism.c159_others",
    "Verif.Props.GmshPrism.c159_prefix_violated",
    "Verif.Props.GmshPrism.c159_unsupported_violated"
   ],
   "note": "Violated: elements that are no prisms are left out instead of refused; for a triangular side that is no face but whose nodes are the first three of a quadrilateral face, std::equal reads past the end. Everything else is proved for meshes of prisms."
  },
  {
   "property": "C160",
   "status": "partial",
   "theorems": [
    "Verif.Props.Earcut.c160_indices",
    "Verif.Props.Earcut.c160_convex_partial",
    "Verif.Props.Earcut.c160_account",
    "Verif.Props.Earcut.c160_polynomials",
    "Verif.Props.Earcut.c160_touching",
    "Verif.Props.Earcut.c160_cartesian_violated"
   ],
   "note": "Violated for Cartesian meshes: the points of a cell are not in the order of its boundary, the crossing quadrilateral gives a single triangle and half of the cell is missing. Proved for convex cells listed along their boundary, up to eighty points; other polygons under the condition that they are used up without repair."
  },
  {
   "property": "C161",
   "status": "partial",
   "theorems": [
    "Verif.Props.PostMesh.c161_solid",
    "Verif.Props.PostMesh.c161_average",
    "Verif.Props.PostMesh.c161_displacement",
    "Verif.Props.PostMesh.c161_plane_partial",
    "Verif.Props.PostMesh.c161_cartesian_violated"
   ],
   "note": "Violated for Cartesian meshes of the plane: half of every cell is lost, since the points of a cell are not in the order of its boundary. Proved for space and for cells of the plane whose points are."
  },
  {
   "property": "C162",
   "status": "partial",
   "theorems": [
    "Verif.Props.Contact.c162_terms",
    "Verif.Props.Contact.c162_forces",
    "Verif.Props.Contact.c162_matrix",
    "Verif.Props.Contact.c162_tangent_partial",
    "Verif.Props.Contact.c162_cell",
    "Verif.Props.Contact.c162_level_plane",
    "Verif.Props.Contact.c162_level_space",
    "Verif.Props.Contact.c162_face_violated",
    "Verif.Props.Contact.c162_coulomb_violated",
    "Verif.Props.Contact.c162_coulomb_cell",
    "Verif.Props.Contact.c162_sizes"
   ],
   "note": "Violated with face unknowns on turned faces (the gap is measured along the turned normal, the matrix has the reference normal) and with Coulomb friction (the derivative of the bound is missing; with cell unknowns it throws). With a reconstruction of full gradients (large deformations) the sizes do not match. Proved: the work of forces and matrix in general; the derivative for cell unknowns and for level faces without friction or with Tresca friction."
  },
  {
   "property": "C163",
   "status": "proved",
   "theorems": [
    "Verif.Props.Contact.c163_projection",
    "Verif.Props.Contact.c163_dprojection",
    "Verif.Props.Contact.c163_signorini",
    "Verif.Props.Contact.c163_tresca",
    "Verif.Props.Contact.c163_consistent",
    "Verif.Props.Contact.c163_symmetric",
    "Verif.Props.Contact.c163_skew",
    "Verif.Props.Contact.c163_gap",
    "Verif.Props.Contact.c163_normal_plane",
    "Verif.Props.Contact.c163_normal_space"
   ],
   "note": "Exact arithmetic. The work of tractions and theta = -1 need both quadratures to integrate products of tractions alike, unit normals and boundary conditions that agree on the contact faces."
  },
  {
   "property": "C164",
   "status": "partial",
   "theorems": [
    "Verif.Props.GmshOut.c164_defined",
    "Verif.Props.GmshOut.c164_points",
    "Verif.Props.GmshOut.c164_plane_partial",
    "Verif.Props.GmshOut.c164_triangle",
    "Verif.Props.GmshOut.c164_tetrahedron",
    "Verif.Props.GmshOut.c164_hexahedron",
    "Verif.Props.GmshOut.c164_post",
    "Verif.Props.GmshOut.c164_small_missing",
    "Verif.Props.GmshOut.c164_pentagon_missing",
    "Verif.Props.GmshOut.c164_polyhedra_missing",
    "Verif.Props.GmshOut.c164_cube_twisted",
    "Verif.Props.GmshOut.c164_line_twice"
   ],
   "note": "Violated: cells of the plane with five or more points are missing if their triangles are smaller than an absolute tolerance; cells of space with neither four nor eight points are missing; eight points are permuted whatever their positions; cells of a line are written twice. Proved for triangles, quadrangles, polygons above the tolerance, tetrahedra, hexahedra with the first index fastest, and for PostMesh."
  },
  {
   "property": "C165",
   "status": "partial",
   "theorems": [
    "Verif.Props.Silo.c165_triangles",
    "Verif.Props.Silo.c165_tetrahedra",
    "Verif.Props.Silo.c165_quadrangles",
    "Verif.Props.Silo.c165_hexahedra",
    "Verif.Props.Silo.c165_polygons",
    "Verif.Props.Silo.c165_points",
    "Verif.Props.Silo.c165_polyhedra_partial",
    "Verif.Props.Silo.c165_aligned_violated"
   ],
   "note": "Violated for polyhedra with a face whose first three points are aligned (a hanging node on its first edge): the face is written in the same order for both its cells. Proved for all other kinds of cells and for plane faces whose first three points turn as the face does. The Silo library is a parameter."
  },
  {
   "property": "C166",
   "status": "partial",
   "theorems": [
    "Verif.Props.Silo.c166_column",
    "Verif.Props.Silo.c166_vectors",
    "Verif.Props.Silo.c166_pointvars",
    "Verif.Props.Silo.c166_report_violated"
   ],
   "note": "Violated: true is returned for vectors and expressions whether or not they were written, even with a closed database, and for std::vector whether or not the library fails; with no values at points the first of them is read. Proved: what is written, and the report for a single column and for values at points."
  },
  {
   "property": "C167",
   "status": "partial",
   "theorems": [
    "Verif.Props.Bingham.c167_minimizer_partial",
    "Verif.Props.Bingham.c167_tolerance_violated",
    "Verif.Props.Bingham.c167_converged"
   ],
   "note": "Violated if the norm of stress + 2 alpha Gu exceeds the yield stress by a factor of at most 1 + 1e-6: the rate is set to zero and is not the minimizer. Proved otherwise; a converged state satisfies the law with a yield stress for cells at rest larger by this factor. Exact arithmetic; the factorized Stokes system is a contract."
  },
  {
   "property": "C168",
   "status": "partial",
   "theorems": [
    "Verif.Props.Bingham.c168_residual_partial",
    "Verif.Props.Bingham.c168_residual_violated",
    "Verif.Props.Bingham.c168_decrease",
    "Verif.Props.Bingham.c168_stops_partial"
   ],
   "note": "Violated: the running sums of stress and strain are added to the residual in every cell, so that early cells count many times. Proved: the reported number lies between the norm and sqrt(N) times the norm; the distance to solutions decreases up to an amount of order yield^2 1e-12 due to cells just above the yield stress, and the loop stops if there are none. Exact arithmetic."
  },
  {
   "property": "C169",
   "status": "proved",
   "theorems": [
    "Verif.Props.HhoSolver.c169_nonneg",
    "Verif.Props.HhoSolver.c169_solvable"
   ],
   "note": "Exact arithmetic, quadratures exact on the polynomials involved, non-negative weights; LDLT is assumed to accept symmetric positive definite matrices."
  },
  {
   "property": "C170",
   "status": "proved",
   "theorems": [
    "Verif.Props.HhoSolver.c170_discrete",
    "Verif.Props.HhoSolver.c170_unique"
   ],
   "note": "Exact arithmetic; mumps_lu is assumed to solve non-singular systems."
  },
  {
   "property": "C171",
   "status": "proved",
   "theorems": [
    "Verif.Props.HhoSolver.c171_polynomial",
    "Verif.Props.HhoSolver.c171_regular",
    "Verif.Props.HhoSolver.c171_errors"
   ],
   "note": "Exact arithmetic; the accumulators before the square roots."
  },
  {
   "property": "C172",
   "status": "partial",
   "theorems": [
    "Verif.Props.TestData.c172_diffusion2",
    "Verif.Props.TestData.c172_diffusion_partial",
    "Verif.Props.TestData.c172_tensor_violation",
    "Verif.Props.TestData.c172_variable",
    "Verif.Props.TestData.c172_helmholtz",
    "Verif.Props.TestData.c172_nitsche",
    "Verif.Props.TestData.c172_transmission",
    "Verif.Props.TestData.c172_heat",
    "Verif.Props.TestData.c172_obstacle",
    "Verif.Props.TestData.c172_tutorial_violation",
    "Verif.Props.TestData.c172_tutorial_partial"
   ],
   "note": "Violated: in one and three dimensions the load of the diffusion programs ignores the tensor, so it is right for the identity only; fun_grad of tutorial 2 lacks the factor pi. Everything else is proved; the second function of the plane transmission problem is not covered. Real arithmetic."
  },
  {
   "property": "C173",
   "status": "partial",
   "theorems": [
    "Verif.Props.TestData.c173_load",
    "Verif.Props.TestData.c173_sigma_violation",
    "Verif.Props.TestData.c173_sigma_partial",
    "Verif.Props.TestData.c173_velocity_violation",
    "Verif.Props.TestData.c173_contact_load",
    "Verif.Props.TestData.c173_contact",
    "Verif.Props.TestData.c173_contact3",
    "Verif.Props.TestData.c173_contact_sharp",
    "Verif.Props.TestData.c173_hyperelastic",
    "Verif.Props.TestData.c173_orientation"
   ],
   "note": "Violated: the exact stress of the elasticity programs has (-2 lambda + 2) in place of -(2 lambda + 2), so its shear component is wrong for every material; the elastodynamic program starts a displacement at rest with a velocity. The loads, the diagonal of the stress and the conditions of contact are proved."
  },
  {
   "property": "C174",
   "status": "proved",
   "theorems": [
    "Verif.Props.TestData.c174_vector_laplacian",
    "Verif.Props.TestData.c174_stokes",
    "Verif.Props.TestData.c174_low_grad",
    "Verif.Props.TestData.c174_maxwell3",
    "Verif.Props.TestData.c174_maxwell2"
   ],
   "note": "Real arithmetic."
  },
  {
   "property": "C175",
   "status": "partial",
   "theorems": [
    "Verif.Props.DgSolver.c175_form",
    "Verif.Props.DgSolver.c175_symmetric",
    "Verif.Props.DgSolver.c175_positive_partial",
    "Verif.Props.DgSolver.c175_violation"
   ],
   "note": "Violated: with the default penalty 1 and degree 1 the matrix of the unit square is indefinite, with penalty 3/2 it is singular; the penalty is scaled by the face diameter only, not by degree or shape of the cell. Proved: form, load and symmetry; positive definiteness if the penalty exceeds the constant of the discrete trace inequality. Exact arithmetic, quadratures with non-negative weights."
  },
  {
   "property": "C176",
   "status": "proved",
   "theorems": [
    "Verif.Props.DgSolver.c176_error",
    "Verif.Props.DgSolver.c176_exact",
    "Verif.Props.DgSolver.c176_exact_coercive"
   ],
   "note": "Exact arithmetic, quadratures exact on the polynomials involved; the error before the square root; homogeneous boundary data, the program has no other."
  },
  {
   "property": "C177",
   "status": "partial",
   "theorems": [
    "Verif.Props.CfemSolver.c177_slopes",
    "Verif.Props.CfemSolver.c177_system_partial",
    "Verif.Props.CfemSolver.c177_discrete_partial",
    "Verif.Props.CfemSolver.c177_unique",
    "Verif.Props.CfemSolver.c177_minimal",
    "Verif.Props.CfemSolver.c177_program_partial",
    "Verif.Props.CfemSolver.c177_unused",
    "Verif.Props.CfemSolver.c177_violation"
   ],
   "note": "Violated for meshes with a point that belongs to no cell: it is an unknown without an equation, the matrix is singular. Proved if every point is linked to the boundary through cells. Exact arithmetic; the factorization is assumed to solve non-singular systems; coefficient and load are taken at the barycenters, as the program does."
  },
  {
   "property": "C178",
   "status": "partial",
   "theorems": [
    "Verif.Props.Nitsche.c178_form",
    "Verif.Props.Nitsche.c178_symmetric",
    "Verif.Props.Nitsche.c178_interior",
    "Verif.Props.Nitsche.c178_consistent",
    "Verif.Props.Nitsche.c178_positive_partial",
    "Verif.Props.Nitsche.c178_violation"
   ],
   "note": "Violated: with the default penalization 1 the local matrix (reconstruction and stabilization of the library) is indefinite on the unit segment. Proved: form, load, symmetry, consistency; positivity if the penalization is at least the constant of the trace inequality (six on the segment for a quadratic reconstruction). Exact arithmetic, exact quadratures, flat faces."
  },
  {
   "property": "C179",
   "status": "partial",
   "theorems": [
    "Verif.Props.Heat.c179_system",
    "Verif.Props.Heat.c179_step",
    "Verif.Props.Heat.c179_start",
    "Verif.Props.Heat.c179_scheme",
    "Verif.Props.Heat.c179_operator",
    "Verif.Props.Heat.c179_steady",
    "Verif.Props.Heat.c179_homogeneous",
    "Verif.Props.Heat.c179_balance",
    "Verif.Props.Heat.c179_stable_partial",
    "Verif.Props.Heat.c179_violation"
   ],
   "note": "Violated: with the penalization 1 that main passes, the discrete operator and the assembled matrix are indefinite on the unit square with degree 0, for every time step. Proved: the assembled system, the operator, the scheme, the energy balance and that steady polynomial solutions are kept, without that assumption, given a non-singular matrix; stability if the discrete operator is positive semidefinite (C178). Exact arithmetic; pardiso is assumed to solve non-singular systems."
  },
  {
   "property": "C180",
   "status": "partial",
   "theorems": [
    "Verif.Props.Heat.c180_loop",
    "Verif.Props.Heat.c180_endless",
    "Verif.Props.Heat.c180_violation"
   ],
   "note": "Violated: the time is advanced after the error is computed, so solution i+1 is compared with the exact solution at the time i dt; exact unknowns are charged and those of the previous time are not. Proved: what the loop computes and when it ends, and that it does not end for time steps that are not positive, which main does not reject. Exact arithmetic, the error before the square root."
  },
  {
   "property": "C181",
   "status": "partial",
   "theorems": [
    "Verif.Props.PoissonApp.c181_first",
    "Verif.Props.PoissonApp.c181_descriptor",
    "Verif.Props.PoissonApp.c181_degrees",
    "Verif.Props.PoissonApp.c181_stale",
    "Verif.Props.PoissonApp.c181_violation",
    "Verif.Props.PoissonApp.c181_violation_degrees"
   ],
   "note": "Violated from the second call on: collect_boundary_info appends to the vector of the state without clearing it and resize keeps the old degrees, so every later call works with the conditions and degrees of the first (proved for all meshes and calls; witnesses: one face changed from dirichlet to neumann, order changed from 1 to 2). Proved for the first call: no undefined behaviour, the faces left out are exactly those the script asks for, the tables are inverse numberings, sysfcs is their size, and each descriptor carries the tag, the kind and the Robin coefficient of the tables."
  },
  {
   "property": "C182",
   "status": "partial",
   "theorems": [
    "Verif.Props.PoissonApp.c182_solution",
    "Verif.Props.PoissonApp.c182_complete",
    "Verif.Props.PoissonApp.c182_partial",
    "Verif.Props.PoissonApp.c182_jump_lost",
    "Verif.Props.PoissonApp.c182_violation"
   ],
   "note": "Violated on jump faces: the data is applied in both cells of the face, so the Dirichlet part of the jump has no effect on the cells (proved in general; witness: two cells with a jump of 1, the solver returns zero). Proved: the result of assembly, solution and decondensation is, in both directions, the solution of the discrete problem in which every cell sees the shifted trace; without jump faces this is the problem asked for, with strong, Neumann and Robin conditions. The local operator, the projections and the exact inverse of the cell block are data of the model."
  },
  {
   "property": "C183",
   "status": "proved",
   "theorems": [
    "Verif.Props.PoissonJump.c183_solution",
    "Verif.Props.PoissonJump.c183_complete",
    "Verif.Props.PoissonJump.c183_jump"
   ],
   "note": "Scalars are exact and 10 is invertible; the local operator, loads and projections are data of the model; the tables of the assembler are covered by the properties of basic_condensed_assembler."
  }
 ]
}