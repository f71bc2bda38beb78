#!/usr/bin/env python3
"""Writes ../MANIFEST.json."""
import json, os
C = []
def c(prop, status, theorems, note):
    C.append(dict(property=prop, status=status, theorems=theorems, note=note))
def ns(n, *ts): return ["%s.%s" % (n if n.startswith("Verif.") else "Verif." + n, t) for t in ts]

c("C01", "proved", ns("Common", "C01_encode_decode", "C01_undefined_iff"), "all radix lists, 64-bit wrap modelled; zero radix = undefined")
c("C02", "proved", ns("Common", "C02_decode_encode", "C02_bijective", "C02_wraps_without_bound"), "")
c("C03", "partial", ns("Common", "C03_decode_encode_partial", "C03_undefined_of_zero", "C03_defined_iff", "C03_negation"),
  "round trip proved for 1<=nx<=11, 1<=ny,nz<=10; outside it the encoder is undefined or (ny=11) wrong, as proved by the negations")
c("C04", "proved", ns("Common", "C04_decode_spec"), "")
c("C05", "proved", ns("Lagrange", "C05_unique", "C05_none", "C05_two_matches"), "")
c("C06", "proved", ns("Lagrange", "C06_eval", "C06_eval_near", "C06_unique"), "exact arithmetic; vertices separated by twice the coincidence tolerance")
c("C07", "proved", ns("Lagrange", "C07_interp", "C07_reproduces", "C07_expansion", "C07_partition"), "")
c("C08", "partial", ns("Lagrange", "C08_der_interp_partial", "C08_der_basis_partial", "C08_negation"),
  "orders 1 and 2 proved for every vertex set; false from order 3 on (C08_negation): the factorial M multiplies an already scaled derivative")
c("C09", "proved", ns("LagrangeElement", "C09_basis", "C09_nodal", "C09_partition"), "")
c("C10", "proved", ns("LagrangeElement", "C10_approx", "C10_grad_basis", "C10_grad_approx"), "")
c("C11", "proved", ns("LagrangeElement", "C11_jac", "C11_det", "C11_inv"), "")
c("C12", "proved", ns("Legendre", "C12_degree", "C12_one_parity", "C12_orthogonal"), "over the reals; exact arithmetic")
c("C13", "proved", ns("Legendre", "C13_legendre_der"), "")
c("C14", "partial", ns("Legendre", "C14_jacobi_der_partial", "C14_negation"),
  "proved for alpha = beta; false otherwise (C14_negation): the factor theta is computed from alpha + alpha")
c("C15", "proved", ns("LegendreElement", "C15_basis", "C15_approx", "C15_grad_approx", "C15_line"), "")
c("C16", "proved", ns("Points", "C16_equispaced", "C16_single"), "")
c("C57", "proved", ns("Points", "C57_chebyshev"), "M_PI taken as the real number pi")
c("C58", "proved", ns("Points", "C58_nodes"), "literal pi taken as the real number pi")
c("C17", "partial", ns("LU", "C17_ret", "C17_factor", "C17_regularised", "C17_singular_negation"),
  "P A = L U, parity and return value proved for every size and matrix; the header's claim that every singular matrix returns 0 is refuted; a singular matrix without zero row gives P A + TINY*D")
c("C18", "proved", ns("LU", "C18_solve"), "")
c("C19", "proved", ns("LU", "C19_invert", "C19_determ"), "")
c("C59", "partial", ns("LU", "C59_multipliers_partial", "C59_negation"),
  "holds when all rows have the same largest magnitude; false in general: the row scale is multiplied instead of divided out")
c("C20", "proved", ns("Jacobian", "C20_mat_inverse"), "")
c("C21", "partial", ns("Jacobian", "C21_entries", "C21_det2", "C21_det4", "C21_det3_partial", "C21_det3_error","C21_det3_negation"),
  "entries proved in all dimensions, determinant in 2D and 4D; the 3D determinant has a wrong term (refuted, and the exact error stated)")
c("C22", "partial", ns("Jacobian", "C22_inverse2", "C22_inverse4", "C22_inverse3_partial", "C22_inverse3_error","C22_inverse3_negation"),
  "2D and 4D proved; the 3D inverse is wrong in general (refuted)")
c("C23", "proved", ns("Shape", "C23_nodal", "C23_partition", "C23_linear"), "all seven fixed-order classes")
c("C24", "partial", ns("Shape", "C24_partials_partial", "C24_negation"),
  "proved for every class, direction and vertex except the edge vertices of Hex20/Hex32 partial_xi_basis, where it is refuted")
c("C25", "partial", ns("Shape", "C25_map_partial", "C25_negation"), "exact characterisation: six wrong entries (Quad4 2,3; Quad8 6; Hex8 7; Hex32 10,31)")
c("C26", "partial", ns("Shape", "C26_surfaces_partial", "C26_distinct", "C26_negation"), "all surfaces except number 2 of Hex20 (never assigned) and of Hex32 (duplicate)")
c("C27", "partial", ns("Shape", "C27_position_partial", "C27_vertices_partial", "C27_affine_partial", "C27_hex32_negation"),
  "all classes except Hex32, whose loop always runs past the end (refuted)")
c("C28", "proved", ns("HexN", "C28_values", "C28_delta", "C28_hasDerivAt"), "")
c("C29", "proved", ns("HexN", "C29_hexn", "C29_hexn_frame", "C29_hexn_sums", "C29_hexn_nodal", "C29_hexn_hasDerivAt", "C29_quadn", "C29_quadn_sums", "C29_quadn_nodal"), "")
c("C60", "proved", ns("HexN", "C60_setup"), "the 1-D node table is a parameter (C30 treats the tables)")
c("C61", "partial", ns("HexN", "C61_position", "C61_affine_partial", "C61_corners", "C61_negation"),
  "physical_position adds to the previous contents of its output: exact characterisation, correct only for a cleared output array")
c("C35", "proved", ns("Swage", "C35_node_cells", "C35_undefined"), "")
c("C36", "proved", ns("Swage", "C36_start", "C36_corners", "C36_unique"), "")
c("C37", "partial", ns("Swage", "C37_cells_partial", "C37_symmetric", "C37_negation"),
  "proved whenever some two cells share a node; a mesh without any shared node (e.g. one cell) writes out of bounds (C37_negation)")
c("C39", "proved", ns("Swage", "C39_elements"), "")
c("C38", "partial", ns("Swage", "C38_patches_partial") + ns("Swage.Key", "C38_key_partial", "C38_grid_partial", "C38_lattice_partial", "C38_negation"),
  "the two hash walks proved for arbitrary keys; keys proved faithful on every rectilinear grid whose last cell is at most 3% thicker than any other and under a separation condition; false in general: the bin size comes from the last cell only (C38_negation)")
c("C40", "proved", ns("Swage", "C40_bdy"), "")
c("C41", "partial", ns("Swage", "C41_tags", "C41_reject_partial", "C41_reject_negation", "C41_retag") + ns("Swage.Key", "C41_patch_coords"),
  "tagging in increasing order proved for all histories; the guard rejects only the first index past the end (others are undefined behaviour, refuted)")
c("C30", "proved", ns("Quad", "C30_legendre", "C30_lobatto", "C30_lobatto12", "C30_untabulated"),
  "error bound 1e-15 relative to the sum of coefficients for every tabulated rule except the 12-point Lobatto rule (4.8e-15); untabulated sizes leave the array unchanged")
c("C42", "partial", ns("Swage.Refine", "C42_numbering_partial", "C42_bins_partial", "C42_positions_partial", "C42_grid_partial", "C42_lattice_partial", "C42_first_vertex_negation", "C42_wide_negation", "C42_order6_negation", "C42_degenerate_negation", "C42_conforming", "C42_conforming_edge"),
  "numbering characterised for every mesh (Gauss point 0 is never merged); same id iff same bin for bin sizes in (0,1]; correct up to order 5 on rectilinear grids whose last cell is at most 3% thicker than any other; refuted for a shared first vertex, for bins wider than 1 and for order 6; a degenerate last cell makes the bin size 0 (undefined)")
c("C43", "proved", ns("Swage.Refine", "C43_cells", "C43_partition"), "needs distinct vertices in the last cell only; otherwise the run is undefined (C42_degenerate_negation)")
c("C44", "proved", ns("Swage.Refine", "C44_convex", "C44_vertex", "C44_affine"), "orders up to 9 (the tabulated Lobatto rules); above, the 1-D nodes are uninitialised")
c("C45", "proved", ns("Swage.Refine", "C45_counts", "C45_order0"), "order 0 reports 8 cells per zone although there is one")
c("C32", "proved", ns("RefElem", "C32_rid", "C32_nodes", "C32_corners", "C32_zones", "C32_blocks"), "")
c("C33", "proved", ns("RefElem", "C33_node", "C33_total", "C33_positive"), "positivity and total (2 +- 1e-23)^3 for the tabulated orders (up to 9)")
c("C34", "proved", ns("RefElem", "C34_patches"), "")
c("C62", "proved", ns("RefElem", "C62_surface"), "")
c("C63", "proved", ns("RefElem", "C63_patch_points", "C63_cell_points", "C63_inside"), "C63_inside for the tabulated orders (up to 9)")
c("C64", "proved", ns("RefElem", "C64_surfaces", "C64_closed"), "")
c("C65", "proved", ns("RefElem", "C65_tables", "C65_nodal"), "tabulated orders (up to 9)")
c("C46", "proved", ns("Geometry", "C46_volume", "C46_parallelepiped", "C46_translation", "C46_measure"), "")
c("C47", "proved", ns("Geometry", "C47_center", "C47_stored", "C47_stored_negation"),
  "the value read through the accessor; what get_vol_hex itself stores uses two nodes of the previous cell (C47_stored, C47_stored_negation) and is hidden by the accessor, which recomputes the average")
c("C48", "proved", ns("Geometry", "C48_gauss", "C48_patch", "C48_cell"), "tabulated orders (up to 9)")
c("C49", "proved", ns("Geometry", "C49_volumes", "C49_affine", "C49_refined"), "C49_affine for the tabulated orders (up to 9)")
c("C52", "partial", ns("MeshBox", "C52_numbering", "C52_cells", "C52_faces", "C52_orientation", "C52_sides_partial", "C52_cell_list", "C52_boundary_negation", "C52_bdy_points"),
  "numbering, incidences, orientation and boundary points proved for every box; the face-to-cell list of a boundary face names an aliased cell instead of the exterior (C52_boundary_negation)")
c("C53", "partial", ns("MeshFile", "C53_box", "C53_restart_partial", "C53_restart_negation"),
  "character-level model of the writers and the reader; the generator's file is read back faithfully (fewer than 10^9 points); the program's own output is read back with mirrored local nodes and negated volumes (C53_restart_negation)")
c("C54", "proved", ns("Average", "C54_value", "C54_maximum", "C54_element_value", "C54_boundary", "C54_cycles", "C54_isolated_negation"),
  "every node belonging to some cell; a node in no cell divides by zero (C54_isolated_negation)")
c("C55", "partial", ns("Average", "C55_tested_partial", "C55_fills_partial", "C55_box_negation"),
  "the fills as actually tested (switch fall-through) characterised for every list; exact for the global and tested shapes; the box fill as configured is refuted (C55_box_negation)")
c("C31", "partial", ns("Tensor", "C31_line", "C31_gauss", "C31_lobatto", "C31_exact", "C31_gauss4d_partial", "C31_gauss4d_negation"),
  "orders 1 to 8 (others read uninitialised variables); proved for gauss_2d/3d and lobatto_2d/3d/4d; gauss_4d initialises column 4 instead of 3 and writes out of bounds on arrays of the documented shape (C31_gauss4d_negation)")
c("C50", "partial", ns("Blas", "C50_matvec_partial", "C50_matvec_negation", "C50_empty_negation", "C50_matmul_partial", "C50_matmul_negation"),
  "square matrices and single columns proved for every contents of the uninitialised copies; every other shape refuted (overrun or wrong product)")
c("C66", "partial", ns("Blas", "C66_transpose", "C66_invert", "C66_invert_singular", "C66_invert_shape"),
  "transposition proved for every shape and inversion for every nonsingular matrix, with the documented getrf/getrs contract as a hypothesis (an implementation meeting it is exhibited); for a singular matrix the function returns normally with contents that are no inverse (C66_invert_singular refutes the last clause)")
c("C67", "partial", ns("Golub", "C67_exact_partial", "C67_one_negation", "C67_zero"),
  "every n >= 2 and all alpha, beta > -1, with the documented dstev contract as a hypothesis (an implementation meeting it is exhibited by the spectral theorem); also positive weights and distinct interior points. With one point the routine returns (0, 2) whatever the parameters, exact precisely when alpha = beta = 0 (C67_one_negation)")
c("C56", "partial", ns("SubWeights", "C56_split", "C56_set_partial", "C56_orders_negation"),
  "orders 1 to 3 (the cases coded), for any symmetric rule and for the tabulated Lobatto rules; order 0 reads out of bounds and orders from 4 on leave the arrays unchanged (C56_orders_negation)")
c("C68", "proved", ns("SubWeights", "C68_normals"), "also: every row has length sqrt 3, not 1 as the name says")
c("C51", "partial", ns("Vtk", "C51_maps", "C51_write", "C51_read", "C51_reject", "C51_roundtrip_partial", "C51_orphan_negation", "C51_single_negation", "C51_reverse"),
  "every order and mesh, given that VTK's PointIndexFromIJK numbers the lattice without repetition (VTK is not in the repository; a transcription of its numbering is shown to meet this for every order); nodes in no element lose their coordinates (C51_orphan_negation) and coordinates are rounded to the number type of VTK's point array (C51_single_negation)")
c("C69", "partial", ns("Swage.HighOrder", "C69_cells", "C69_partition", "C69_gauss", "C69_vertex", "C69_polynomial", "C69_numbering_partial", "C69_bins_partial", "C69_positions_partial", "C69_lattice_partial", "C69_conforming", "C69_conforming_edge", "C69_first_vertex_negation", "C69_zdir_negation", "C69_curved_negation") + ns("Geometry", "C116_boxes_partial"),
  "positions, cells and conformity proved for every mesh whose first vertex rows are distinct in the x-y plane; same node iff same position proved for box meshes of every order; refuted for a shared first vertex, for rows along z (undefined: the z term of the distance is zero) and for curved elements that leave the vertex bounding box")
c("C70", "partial", ns("DetJac", "C70_value_partial", "C70_polynomial_partial", "C70_agree_partial", "C70_refined_partial", "C70_boxes_partial", "C70_gauss_negation", "C70_shared_negation"),
  "refuted: the array is written at node numbers, not Gauss point numbers, so entries from num_nodes on are never written and at shared nodes the last element wins; proved: what each node's entry holds, for every mesh; correct where the elements around a node agree, e.g. box meshes")
c("C71", "proved", ns("DetJac", "C71_mesh", "C71_value", "C71_annulus", "C71_accuracy"), "order p >= 1 (for p = 0 the example divides by zero); sine, cosine and pi are the real ones")
c("C72", "proved", ns("Lagrange", "C72_interp_error", "C72_interp_bound", "C72_der_error", "C72_element"), "f is differentiable on the whole line")
c("C73", "proved", ns("Geometry", "C73_every", "C73_volume", "C73_measure", "C73_linear"), "real arithmetic; error bound in terms of the coefficients of the element map")
c("C74", "proved", ns("Geometry", "C74_closed", "C74_affine", "C74_volume"), "real arithmetic; error bounds in terms of the coefficients of the element map")
c("C75", "partial", ns("Average", "C75_driver_partial", "C75_shipped", "C75_overflow_negation", "C75_interval_negation", "C75_zero_negation"), "real time; the full claim is false of the code: the interval graphics_dt_ival is never used because graphics_time keeps its initial value 1e8, more than 250 dumps overrun graphics_times, and an interval of 0 divides by zero")
c("C76", "proved", ns("Average", "C76_vtu"), "the numbers in the data arrays; XML tags and coordinates not modelled")
c("C77", "partial", ns("Average", "C77_setup_partial", "C77_single_negation"), "proved for every conforming set of cells of a rectilinear grid whose last cell is at most 3% thicker than any other, orders up to 5, with some two cells sharing a node; without shared nodes the setup is undefined (C77_single_negation), and C38 and C42 refute the claim for other meshes")
c("C78", "partial", ns("Average", "C78_program_partial"), "proved for every conforming set of cells of a rectilinear grid whose last cell is at most 3% thicker than any other, with some two cells sharing a node; same restrictions as C77")
c("C79", "proved", ns("Average", "C79_box_to_average"), "real arithmetic before printing; the decimal rounding is any rounding to nearest")
c("C80", "proved", ns("Vtk", "C80_names", "C80_files", "C80_other", "C80_mesh"), "the readers and writers of VTK are parameters; C80_mesh assumes that the reader returns what the writer was given")
c("C81", "proved", ns("DetJac", "C81_program"), "real arithmetic, real sine, cosine and pi; VTK's numbering and writer are parameters")
c("C82", "partial", ns("Shape", "C82_choose3D_partial", "C82_choose2D_partial", "C82_arbitrary_negation"), "proved for all fixed-order types; QuadN and HexN leave the pointer unchanged (C82_arbitrary_negation)")
c("C83", "partial", ns("ComplexStep", "C83_real", "C83_interp_partial", "C83_element_partial", "C83_vertex", "C83_vertex_negation"),
  "proved at points at least the tolerance away from every vertex; within the tolerance of a vertex the complex step through eval_interp returns derivative 0 (C83_vertex, C83_vertex_negation); exact arithmetic, so the O(h^2) error is the only one")
c("C84", "proved", ns("ComplexStep", "C84_legendre", "C84_element", "C84_real"), "exact arithmetic, so the O(h^2) error is the only one")
c("C85", "partial", ns("Golub", "C85_eig_partial", "C85_const_negation"),
  "proved under the documented contract of LAPACK dstev; the const argument subdiag is overwritten (C85_const_negation)")
c("C86", "proved", ns("Average", "C86_converge", "C86_settles", "C86_floating_negation", "C86_program_partial"),
  "real arithmetic; C86_converge and C86_settles cover every valid mesh; C86_program_partial shows that the meshes of the program (grids, as in C78) meet the assumption")
c("C87", "proved", ns("Average", "C87_box_to_steady", "C87_program_partial", "C87_linear_negation"),
  "real arithmetic; C87_box_to_steady for every box of the generator, C87_program_partial for the grids of C78; C87_linear_negation: the limit is not linear in x")
c("C88", "proved", ns("Average", "C88_bounds", "C88_accuracy", "C88_program_partial", "C88_box"),
  "exponent range unbounded; the mesh is the one set up in exact arithmetic; C88_box for every box of the generator, C88_program_partial for the grids of C78")
c("C89", "partial", ns("LU", "C89_ret", "C89_factor", "C89_solve", "C89_forward", "C89_invert", "C89_determ", "C89_growth_partial", "C89_equilibrated_partial", "C89_stability_negation"),
  "the bounds in terms of the computed factors are proved in full; the last sentence is false: slam.cpp multiplies by the row scale factors instead of dividing, and C89_stability_negation gives a 2x2 system on which double precision returns (0,1) instead of about (1,1); exponent range unbounded, no fused multiply-add")
c("C90", "partial", ns("Int32", "C90_refine_same", "C90_refine_fits", "C90_refine_overflow", "C90_cube_fits", "C90_cube_overflow", "C90_unit_fits", "C90_unit_negation", "C90_tiny_negation", "C90_patches_same", "C90_patches_fits", "C90_patches_overflow", "C90_patches_cube", "C90_plate_negation", "C90_high_same", "C90_high_fits", "C90_high_cube_fits", "C90_high_negation"),
  "false as stated: the keys overflow on a unit cube of n^3 cells refined to order p with p*n >= 117 (C90_unit_negation), on one cell of size <= 1e-4 (C90_tiny_negation), on n^3 elements of order p with n*p^2 >= 185 in refine_high_order_mesh (C90_high_negation) and in build_patch_connectivity on a plate-shaped cell (C90_plate_negation); proved: without overflow the result is that of exact integers, and sufficient conditions for no overflow (e.g. p*n <= 92 on the unit-cell cube); rounding not modelled here")
c("C91", "partial", ns("Swage.World", "C91_access", "C91_write", "C91_gauss", "C91_global_partial", "C91_frame_partial", "C91_average", "C91_local_negation", "C91_new_negation", "C91_clobber_negation", "C91_count_negation"),
  "proved for the Gauss points of every mesh and for the patch and cell points of the global object; false otherwise: build_patch_connectivity (swage.cpp:1642-1643) allocates the patch and cell points of the global object mesh instead of those of the mesh it is called for (C91_local_negation, C91_new_negation) and so destroys what is stored there (C91_clobber_negation); num_gauss_cell_pts() is never set (C91_count_negation)")
c("C92", "partial", ns("Swage.Refine", "C92_aligned", "C92_grid_partial", "C92_rotated_negation"),
  "proved: points on a common side of two elements numbered the same way are the same floating-point numbers, for every mesh and order up to 9 (C92_aligned); on rectilinear grids, orders up to 5, with cells at least 1e6 u (A+1) thick, the whole refined mesh is that of exact arithmetic (C92_grid_partial); false in general: in double precision a neighbour numbered with its axes turned by 90 degrees computes the common face centre with another last bit and gets another node (C92_rotated_negation); exponent range unbounded, no fused multiply-add")

c("C93", "partial", ns("Verif.Swage.Key", "C93_aligned", "C93_dyadic", "C93_grid_partial", "C93_negation"),
  "Rounded arithmetic (any rounding; binary64 for the failure). Proved: aligned neighbours share the patch on every mesh; with two spare bits any two sides with the same nodes do; on rectilinear grids the patches are exactly the faces if 2^21 u A^3 <= s^3. Refuted for turned neighbours by a two-cell mesh with double precision coordinates (C93_negation).")
c("C94", "proved", ns("Verif.Fp.Interp", "C94_weights", "C94_basis", "C94_interp", "C94_interp_error", "C94_vertex", "C94_elem_basis", "C94_elem_approx", "C94_elem_error"),
  "Rounded arithmetic (any rounding with u <= 1/2; instances in binary64): weights 3(N-1), basis functions 5N, interpolants 6N+1, element basis 15N+2 and element interpolants 18N+3 relative errors.")
c("C95", "partial", ns("Verif.Fp.Interp", "C95_vertex_partial", "C95_constant_partial", "C95_away_partial", "C95_negation"),
  "Proved at the vertices (7N+3 relative errors on the differences of the data; exactly zero for constant data) and elsewhere with the factor 1/distance to the nearest vertex. Without that factor refuted in binary64: derivative 0.05 for constant data 1 at a point ten tolerances from a vertex (C95_negation).")
c("C96", "partial", ns("Verif.Fp.Geom", "C96_volume", "C96_double", "C96_grid", "C96_center", "C96_negation"),
  "Proved for every rounding: error at most 19u/(1-19u) * 12 A B C with bounds A, B, C of the coordinates (C96_volume; L^3/2^45 in double precision and the sign of larger volumes, C96_double); relative error 2u+u^2 for coordinates on a dyadic grid with enough spare bits (C96_grid); cell centres (C96_center). Independence of the position is false: in double precision a 1 x 1 x 123456789 box with integer coordinates below 2^30 gets a negative volume (C96_negation).")
c("C97", "proved", ns("Verif.Fp.Geom", "C97_entries", "C97_det", "C97_inverse", "C97_far"),
  "For every rounding with |fl x - x| <= u|x|. C97_far: the determinant is right for the box for which get_vol_hex returns a negative volume (C96_negation).")
c("C98", "proved", ns("Verif.Fp.Geom", "C98_volumes", "C98_positive", "C98_lattice"),
  "For every rounding; C98_lattice is positivity in double precision for all orders up to 9. The determinants are inputs here; their own error is C97.")
c("C99", "proved", ns("Verif.Fp.Legendre", "C99_eval", "C99_double", "C99_approx", "C99_basis", "C99_element"),
  "For every rounding with |fl x - x| <= u|x| and exact small integers; overflow and underflow are not modelled.")
c("C100", "proved", ns("Verif.Fp.Legendre", "C100_eval", "C100_approx", "C100_basis", "C100_element"),
  "std::tgamma is a parameter with relative error epsilon at the integers used; std::pow(0.5, k) is exact. Overflow (tgamma above 171!) is not modelled.")
c("C101", "partial", ns("Verif.Fp.MeshBox", "C101_order", "C101_positive_partial", "C101_collapse", "C101_negation"),
  "Never an inverted cell (C101_order, any rounding); positive volumes and placement if the spacing is at least 1.00001e-5 times the largest coordinate (C101_positive_partial); false for finer meshes: in one decade, more cells than the grid of six digits collapse a layer (C101_collapse), e.g. 1000 cells from 1000 to 1001 in double precision (C101_negation). Overflow is not modelled.")
c("C102", "partial", ns("Verif.MeshFile","C102_cut_partial","C102_negation","readMeshT_of_readMesh"), "The reader is modelled with its unchecked fscanf and fgetc calls. C102_cut_partial says for every cut point what read_mesh does (a cut between the header and the first digit of the number of points leaves num_nodes uninitialised and is not described further); C102_negation gives, for every box mesh with at least 11 points, a cut that yields a wrong mesh without reading uninitialised memory; readMeshT_of_readMesh: on complete files the reader agrees with the one of C53.")
c("C103", "proved", ns("Verif.Legendre.Rec","C103_legendre","C103_jacobi","C103_derivative","C103_approx", "C103_der_approx","C103_exponential"), "The recursion is modelled with a signed 32-bit order, a finite number of stack frames and a call counter; each theorem is an equivalence: it returns this value after this many calls iff the order is in the range and the stack suffices.")
c("C104", "proved", ns("Verif.Fp.Elem","C104_basis","C104_partials","C104_partition","C104_position","C104_nodal","C104_vertices","C104_linear","C104_linear_partition","C104_linear_position","C104_hex32_negation"), "The rounded routines are generated from the exact model with a rounding after each operation in source order, the table entries 1/3 rounded. Overflow, underflow and contraction to fused operations are left out. The partials are compared with the exact value of the same routine (C24 says where that is not the derivative).")
c("C105", "proved", ns("Verif.Ensight","C105_crash","C105_finished","C105_durable","C105_average","C105_box","C105_stale_negation","C105_window_negation"), "A process that dies loses any suffix of what it printed to the open file; closed files are whole. Crashes of the operating system and full disks are not modelled. The viewer is a reader of case files in Ensight/Spec that ignores a line without newline and wants as many time values as steps. At most 10^5 dumps (the name pattern has five digits; graphics_times has room for 250, C75). The negations show that a rerun over old files, and the moment of rewriting the case file, are not safe.")
c("C106", "proved", ns("Verif.VtuFile","C106_vtu","C106_cut","C106_crash","C106_collapse_negation","C106_ids_negation","C106_lost_negation"), "Character-level model of vtk_writer; %f rounds to a nearest sixth decimal (ties arbitrary), the conversion of the cell number to float is any rounding to a nearest number with 24 bits. The viewer is a line-oriented reader in VtuFile/Spec that wants the closing tag. Infinities, NaN and numbers beyond int are not modelled; main has the call of vtk_writer commented out.")
c("C107", "proved", ns("Verif.Fp.HexN","C107_basis1d","C107_nodal1d","C107_der1d","C107_der1d_vertex","C107_hexn_basis","C107_hexn_nodal","C107_hexn_partials","C107_hexn_sum","C107_hexn_partial_sums","C107_quadn","C107_quadn_nodal","C107_quadn_position","C107_quadn_position_vertex","C107_sum_negation","C107_der1d_negation"), "Rounded arithmetic without overflow and underflow (Fp/Arith); the 1-D positions are any reals and taken as given, so the bounds are relative to the stored vertices.")
c("C108","partial",ns("Verif.Average","C108_bounds","C108_accuracy","C108_program_partial","C108_box","C108_underflow_negation"),
"IEEE double precision with overflow (none) and gradual underflow. Bounds and accuracy for all meshes without isolated nodes; program theorem partial because it is restricted to grids as in C78. Negation: constants below 2^-1071 are averaged to 0, so constants and positivity are not kept at the end of the exponent range.")
c("C109","proved",ns("Verif.Fp.GeomI","C109_volume","C109_overflow_negation","C109_underflow_negation"),
"IEEE double precision with overflow (none, standing for infinity or NaN) and gradual underflow. The two negations show that the statement fails outside its hypotheses: 12 times the volume overflows although the volume is finite; products y*z underflow although x*y*z is normal.")
c("C110","proved",ns("Verif.Fp.ElemI","C110_basis","C110_partials","C110_position","C110_nodal","C110_vertices","C110_overflow_negation","C110_hex32_negation"),
"IEEE double precision with overflow (none, standing for infinity or NaN) and gradual underflow. Positions for every class but Hex32, whose routine reads past its vertices (C27). Exactness at the vertices for all classes but Quad12 and Hex32, whose reference vertices +-1/3 are not doubles. The negation shows that the bound on the coordinates cannot be dropped.")
c("C111","proved",ns("Verif.Fp.Cx","C111_eval","C111_double","C111_approx","C111_approx_double","C111_basis","C111_basis_double"),
"std::complex<double> as pairs with a rounding after every operation on the parts, without fused operations; unbounded exponent range (an imaginary part that underflows is not covered). The coefficients of the expansion are real.")
c("C112","proved",ns("Verif.Geometry","C112_cell","C112_boundary","C112_moved","C112_grid_patches","C112_grid","C112_refined","C112_cube")+ns("Verif.Fp.Geom","C112_rounded","C112_rounded_grid","C112_rounded_cube"),
"Volumes as real numbers (C46 is the routine), and in rounded arithmetic (C96 is the routine) with the error of C96 for each cell. Consistent numbering (`Oriented`): two sides with the same nodes list them in opposite orders; proved for every grid and refined grid. The keys of build_patch_connectivity must tell sides apart exactly when their nodes differ, which is proved for grids (C41).")
c("C113","partial",ns("Verif.Concurrent","C113_schedule_partial","C113_history","C113_shared_negation","C113_work_negation"),
"The statement for threads in general is false of the code (two negations): the digits of an index (`ijk`) and the work array (`C`) are members of the object, so two threads that use one object can be given wrong values. Proved for programs in which two threads that use the same object do not both use `ijk` and not both use `C` (different objects, or one thread only eval_basis, for Legendre elements also eval_grad_basis, and the other only eval_approx, eval_grad_approx), and for one thread without restriction. Single reads and writes are interleaved; as no two threads are ever about to access the same entry (third conclusion), weaker memory models give no other results. Elements over real numbers; points as in C09.")
c("C114","partial",ns("Verif.Heap","C114_memory_partial","C114_leak_negation","C114_copy_negation","C114_init_negation","C114_average"),
"The statement is false of the code: `delete [] w, C;`, `delete[] a, b, c;` and `delete[] a, ipiv, b;` give back only the first block, the destructor of LegendreElement and eig_sym_tri give back nothing of `C` and `diag_copy`, a state object initialised again forgets its blocks, and copies share their blocks (three negations). Proved: without copies, no block is given back twice, and the memory in use is exactly that of the existing objects plus the stated part of every destroyed element, repeated initialisation and call; nothing is left of the state of the Average example. Allocation failures and the memory of MATAR arrays are not modelled.")
c("C115","proved",ns("Verif.Geometry","C115_surface","C115_volume","C115_measure","C115_computed"),
"Exact real arithmetic. That every element has such a map (of which CurvedBy speaks) is C73_every. Non-vacuity: the cube of order 2 whose centre node has been moved far outside still gets the volume 8.")
c("C116","proved",ns("Verif.Geometry","C116_volume","C116_computed"),
"Exact real arithmetic. Elements glued with their lattice directions turned against each other: C117. Non-vacuity: two elements of order 2 side by side. That refine_high_order_mesh produces such a gluing from box meshes is C116_boxes_partial, listed under C69.")
c("C117","proved",ns("Verif.Geometry","C117_volume","C117_computed","Glued.any"),
"Exact real arithmetic. Generalises C116 (Glued.any). Non-vacuity: two elements of order 2 side by side, the second turned by 180 degrees.")
c("C118","proved",ns("Verif.Geometry","C118_volume","C118_computed"),
"Exact real arithmetic. Non-vacuity: two elements of order 2 side by side, and the same with the second turned by 180 degrees and the middle node of the common side moved to any place.")
c("C119","proved",ns("Verif.Geometry","C119_volume","C119_computed"),
"Exact real arithmetic. Corresponding outer sides are whole sides of elements (a side split into several is not covered). Non-vacuity: the cube as one element of order 1 and as one of order 2 whose centre node has been moved outside.")

with open(os.path.join(os.path.dirname(os.path.abspath(__file__)), "..", "MANIFEST.json"), "w") as f:
    json.dump({"claims": C}, f, indent=1)
print(len(C))
