{
 "claims": [
  {
   "property": "C01",
   "status": "proved",
   "theorems": [
    "Verif.Common.C01_encode_decode",
    "Verif.Common.C01_undefined_iff"
   ],
   "note": "all radix lists, 64-bit wrap modelled; zero radix = undefined"
  },
  {
   "property": "C02",
   "status": "proved",
   "theorems": [
    "Verif.Common.C02_decode_encode",
    "Verif.Common.C02_bijective",
    "Verif.Common.C02_wraps_without_bound"
   ],
   "note": ""
  },
  {
   "property": "C03",
   "status": "partial",
   "theorems": [
    "Verif.Common.C03_decode_encode_partial",
    "Verif.Common.C03_undefined_of_zero",
    "Verif.Common.C03_defined_iff",
    "Verif.Common.C03_negation"
   ],
   "note": "round trip proved for 1<=nx<=11, 1<=ny,nz<=10; outside it the encoder is undefined or (ny=11) wrong, as proved by the negations"
  },
  {
   "property": "C04",
   "status": "proved",
   "theorems": [
    "Verif.Common.C04_decode_spec"
   ],
   "note": ""
  },
  {
   "property": "C05",
   "status": "proved",
   "theorems": [
    "Verif.Lagrange.C05_unique",
    "Verif.Lagrange.C05_none",
    "Verif.Lagrange.C05_two_matches"
   ],
   "note": ""
  },
  {
   "property": "C06",
   "status": "proved",
   "theorems": [
    "Verif.Lagrange.C06_eval",
    "Verif.Lagrange.C06_eval_near",
    "Verif.Lagrange.C06_unique"
   ],
   "note": "exact arithmetic; vertices separated by twice the coincidence tolerance"
  },
  {
   "property": "C07",
   "status": "proved",
   "theorems": [
    "Verif.Lagrange.C07_interp",
    "Verif.Lagrange.C07_reproduces",
    "Verif.Lagrange.C07_expansion",
    "Verif.Lagrange.C07_partition"
   ],
   "note": ""
  },
  {
   "property": "C08",
   "status": "partial",
   "theorems": [
    "Verif.Lagrange.C08_der_interp_partial",
    "Verif.Lagrange.C08_der_basis_partial",
    "Verif.Lagrange.C08_negation"
   ],
   "note": "orders 1 and 2 proved for every vertex set; false from order 3 on (C08_negation): the factorial M multiplies an already scaled derivative"
  },
  {
   "property": "C09",
   "status": "proved",
   "theorems": [
    "Verif.LagrangeElement.C09_basis",
    "Verif.LagrangeElement.C09_nodal",
    "Verif.LagrangeElement.C09_partition"
   ],
   "note": ""
  },
  {
   "property": "C10",
   "status": "proved",
   "theorems": [
    "Verif.LagrangeElement.C10_approx",
    "Verif.LagrangeElement.C10_grad_basis",
    "Verif.LagrangeElement.C10_grad_approx"
   ],
   "note": ""
  },
  {
   "property": "C11",
   "status": "proved",
   "theorems": [
    "Verif.LagrangeElement.C11_jac",
    "Verif.LagrangeElement.C11_det",
    "Verif.LagrangeElement.C11_inv"
   ],
   "note": ""
  },
  {
   "property": "C12",
   "status": "proved",
   "theorems": [
    "Verif.Legendre.C12_degree",
    "Verif.Legendre.C12_one_parity",
    "Verif.Legendre.C12_orthogonal"
   ],
   "note": "over the reals; exact arithmetic"
  },
  {
   "property": "C13",
   "status": "proved",
   "theorems": [
    "Verif.Legendre.C13_legendre_der"
   ],
   "note": ""
  },
  {
   "property": "C14",
   "status": "partial",
   "theorems": [
    "Verif.Legendre.C14_jacobi_der_partial",
    "Verif.Legendre.C14_negation"
   ],
   "note": "proved for alpha = beta; false otherwise (C14_negation): the factor theta is computed from alpha + alpha"
  },
  {
   "property": "C15",
   "status": "proved",
   "theorems": [
    "Verif.LegendreElement.C15_basis",
    "Verif.LegendreElement.C15_approx",
    "Verif.LegendreElement.C15_grad_approx",
    "Verif.LegendreElement.C15_line"
   ],
   "note": ""
  },
  {
   "property": "C16",
   "status": "proved",
   "theorems": [
    "Verif.Points.C16_equispaced",
    "Verif.Points.C16_single"
   ],
   "note": ""
  },
  {
   "property": "C57",
   "status": "proved",
   "theorems": [
    "Verif.Points.C57_chebyshev"
   ],
   "note": "M_PI taken as the real number pi"
  },
  {
   "property": "C58",
   "status": "proved",
   "theorems": [
    "Verif.Points.C58_nodes"
   ],
   "note": "literal pi taken as the real number pi"
  },
  {
   "property": "C17",
   "status": "partial",
   "theorems": [
    "Verif.LU.C17_ret",
    "Verif.LU.C17_factor",
    "Verif.LU.C17_regularised",
    "Verif.LU.C17_singular_negation"
   ],
   "note": "P A = L U, parity and return value proved for every size and matrix; the header's claim that every singular matrix returns 0 is refuted; a singular matrix without zero row gives P A + TINY*D"
  },
  {
   "property": "C18",
   "status": "proved",
   "theorems": [
    "Verif.LU.C18_solve"
   ],
   "note": ""
  },
  {
   "property": "C19",
   "status": "proved",
   "theorems": [
    "Verif.LU.C19_invert",
    "Verif.LU.C19_determ"
   ],
   "note": ""
  },
  {
   "property": "C59",
   "status": "partial",
   "theorems": [
    "Verif.LU.C59_multipliers_partial",
    "Verif.LU.C59_negation"
   ],
   "note": "holds when all rows have the same largest magnitude; false in general: the row scale is multiplied instead of divided out"
  },
  {
   "property": "C20",
   "status": "proved",
   "theorems": [
    "Verif.Jacobian.C20_mat_inverse"
   ],
   "note": ""
  },
  {
   "property": "C21",
   "status": "partial",
   "theorems": [
    "Verif.Jacobian.C21_entries",
    "Verif.Jacobian.C21_det2",
    "Verif.Jacobian.C21_det4",
    "Verif.Jacobian.C21_det3_partial",
    "Verif.Jacobian.C21_det3_error",
    "Verif.Jacobian.C21_det3_negation"
   ],
   "note": "entries proved in all dimensions, determinant in 2D and 4D; the 3D determinant has a wrong term (refuted, and the exact error stated)"
  },
  {
   "property": "C22",
   "status": "partial",
   "theorems": [
    "Verif.Jacobian.C22_inverse2",
    "Verif.Jacobian.C22_inverse4",
    "Verif.Jacobian.C22_inverse3_partial",
    "Verif.Jacobian.C22_inverse3_error",
    "Verif.Jacobian.C22_inverse3_negation"
   ],
   "note": "2D and 4D proved; the 3D inverse is wrong in general (refuted)"
  },
  {
   "property": "C23",
   "status": "proved",
   "theorems": [
    "Verif.Shape.C23_nodal",
    "Verif.Shape.C23_partition",
    "Verif.Shape.C23_linear"
   ],
   "note": "all seven fixed-order classes"
  },
  {
   "property": "C24",
   "status": "partial",
   "theorems": [
    "Verif.Shape.C24_partials_partial",
    "Verif.Shape.C24_negation"
   ],
   "note": "proved for every class, direction and vertex except the edge vertices of Hex20/Hex32 partial_xi_basis, where it is refuted"
  },
  {
   "property": "C25",
   "status": "partial",
   "theorems": [
    "Verif.Shape.C25_map_partial",
    "Verif.Shape.C25_negation"
   ],
   "note": "exact characterisation: six wrong entries (Quad4 2,3; Quad8 6; Hex8 7; Hex32 10,31)"
  },
  {
   "property": "C26",
   "status": "partial",
   "theorems": [
    "Verif.Shape.C26_surfaces_partial",
    "Verif.Shape.C26_distinct",
    "Verif.Shape.C26_negation"
   ],
   "note": "all surfaces except number 2 of Hex20 (never assigned) and of Hex32 (duplicate)"
  },
  {
   "property": "C27",
   "status": "partial",
   "theorems": [
    "Verif.Shape.C27_position_partial",
    "Verif.Shape.C27_vertices_partial",
    "Verif.Shape.C27_affine_partial",
    "Verif.Shape.C27_hex32_negation"
   ],
   "note": "all classes except Hex32, whose loop always runs past the end (refuted)"
  },
  {
   "property": "C28",
   "status": "proved",
   "theorems": [
    "Verif.HexN.C28_values",
    "Verif.HexN.C28_delta",
    "Verif.HexN.C28_hasDerivAt"
   ],
   "note": ""
  },
  {
   "property": "C29",
   "status": "proved",
   "theorems": [
    "Verif.HexN.C29_hexn",
    "Verif.HexN.C29_hexn_frame",
    "Verif.HexN.C29_hexn_sums",
    "Verif.HexN.C29_hexn_nodal",
    "Verif.HexN.C29_hexn_hasDerivAt",
    "Verif.HexN.C29_quadn",
    "Verif.HexN.C29_quadn_sums",
    "Verif.HexN.C29_quadn_nodal"
   ],
   "note": ""
  },
  {
   "property": "C60",
   "status": "proved",
   "theorems": [
    "Verif.HexN.C60_setup"
   ],
   "note": "the 1-D node table is a parameter (C30 treats the tables)"
  },
  {
   "property": "C61",
   "status": "partial",
   "theorems": [
    "Verif.HexN.C61_position",
    "Verif.HexN.C61_affine_partial",
    "Verif.HexN.C61_corners",
    "Verif.HexN.C61_negation"
   ],
   "note": "physical_position adds to the previous contents of its output: exact characterisation, correct only for a cleared output array"
  },
  {
   "property": "C35",
   "status": "proved",
   "theorems": [
    "Verif.Swage.C35_node_cells",
    "Verif.Swage.C35_undefined"
   ],
   "note": ""
  },
  {
   "property": "C36",
   "status": "proved",
   "theorems": [
    "Verif.Swage.C36_start",
    "Verif.Swage.C36_corners",
    "Verif.Swage.C36_unique"
   ],
   "note": ""
  },
  {
   "property": "C37",
   "status": "partial",
   "theorems": [
    "Verif.Swage.C37_cells_partial",
    "Verif.Swage.C37_symmetric",
    "Verif.Swage.C37_negation"
   ],
   "note": "proved whenever some two cells share a node; a mesh without any shared node (e.g. one cell) writes out of bounds (C37_negation)"
  },
  {
   "property": "C39",
   "status": "proved",
   "theorems": [
    "Verif.Swage.C39_elements"
   ],
   "note": ""
  },
  {
   "property": "C38",
   "status": "partial",
   "theorems": [
    "Verif.Swage.C38_patches_partial",
    "Verif.Swage.Key.C38_key_partial",
    "Verif.Swage.Key.C38_grid_partial",
    "Verif.Swage.Key.C38_lattice_partial",
    "Verif.Swage.Key.C38_negation"
   ],
   "note": "the two hash walks proved for arbitrary keys; keys proved faithful on every rectilinear grid whose last cell is at most 3% thicker than any other and under a separation condition; false in general: the bin size comes from the last cell only (C38_negation)"
  },
  {
   "property": "C40",
   "status": "proved",
   "theorems": [
    "Verif.Swage.C40_bdy"
   ],
   "note": ""
  },
  {
   "property": "C41",
   "status": "partial",
   "theorems": [
    "Verif.Swage.C41_tags",
    "Verif.Swage.C41_reject_partial",
    "Verif.Swage.C41_reject_negation",
    "Verif.Swage.C41_retag",
    "Verif.Swage.Key.C41_patch_coords"
   ],
   "note": "tagging in increasing order proved for all histories; the guard rejects only the first index past the end (others are undefined behaviour, refuted)"
  },
  {
   "property": "C30",
   "status": "proved",
   "theorems": [
    "Verif.Quad.C30_legendre",
    "Verif.Quad.C30_lobatto",
    "Verif.Quad.C30_lobatto12",
    "Verif.Quad.C30_untabulated"
   ],
   "note": "error bound 1e-15 relative to the sum of coefficients for every tabulated rule except the 12-point Lobatto rule (4.8e-15); untabulated sizes leave the array unchanged"
  },
  {
   "property": "C42",
   "status": "partial",
   "theorems": [
    "Verif.Swage.Refine.C42_numbering_partial",
    "Verif.Swage.Refine.C42_bins_partial",
    "Verif.Swage.Refine.C42_positions_partial",
    "Verif.Swage.Refine.C42_grid_partial",
    "Verif.Swage.Refine.C42_lattice_partial",
    "Verif.Swage.Refine.C42_first_vertex_negation",
    "Verif.Swage.Refine.C42_wide_negation",
    "Verif.Swage.Refine.C42_order6_negation",
    "Verif.Swage.Refine.C42_degenerate_negation",
    "Verif.Swage.Refine.C42_conforming",
    "Verif.Swage.Refine.C42_conforming_edge"
   ],
   "note": "numbering characterised for every mesh (Gauss point 0 is never merged); same id iff same bin for bin sizes in (0,1]; correct up to order 5 on rectilinear grids whose last cell is at most 3% thicker than any other; refuted for a shared first vertex, for bins wider than 1 and for order 6; a degenerate last cell makes the bin size 0 (undefined)"
  },
  {
   "property": "C43",
   "status": "proved",
   "theorems": [
    "Verif.Swage.Refine.C43_cells",
    "Verif.Swage.Refine.C43_partition"
   ],
   "note": "needs distinct vertices in the last cell only; otherwise the run is undefined (C42_degenerate_negation)"
  },
  {
   "property": "C44",
   "status": "proved",
   "theorems": [
    "Verif.Swage.Refine.C44_convex",
    "Verif.Swage.Refine.C44_vertex",
    "Verif.Swage.Refine.C44_affine"
   ],
   "note": "orders up to 9 (the tabulated Lobatto rules); above, the 1-D nodes are uninitialised"
  },
  {
   "property": "C45",
   "status": "proved",
   "theorems": [
    "Verif.Swage.Refine.C45_counts",
    "Verif.Swage.Refine.C45_order0"
   ],
   "note": "order 0 reports 8 cells per zone although there is one"
  },
  {
   "property": "C32",
   "status": "proved",
   "theorems": [
    "Verif.RefElem.C32_rid",
    "Verif.RefElem.C32_nodes",
    "Verif.RefElem.C32_corners",
    "Verif.RefElem.C32_zones",
    "Verif.RefElem.C32_blocks"
   ],
   "note": ""
  },
  {
   "property": "C33",
   "status": "proved",
   "theorems": [
    "Verif.RefElem.C33_node",
    "Verif.RefElem.C33_total",
    "Verif.RefElem.C33_positive"
   ],
   "note": "positivity and total (2 +- 1e-23)^3 for the tabulated orders (up to 9)"
  },
  {
   "property": "C34",
   "status": "proved",
   "theorems": [
    "Verif.RefElem.C34_patches"
   ],
   "note": ""
  },
  {
   "property": "C62",
   "status": "proved",
   "theorems": [
    "Verif.RefElem.C62_surface"
   ],
   "note": ""
  },
  {
   "property": "C63",
   "status": "proved",
   "theorems": [
    "Verif.RefElem.C63_patch_points",
    "Verif.RefElem.C63_cell_points",
    "Verif.RefElem.C63_inside"
   ],
   "note": "C63_inside for the tabulated orders (up to 9)"
  },
  {
   "property": "C64",
   "status": "proved",
   "theorems": [
    "Verif.RefElem.C64_surfaces",
    "Verif.RefElem.C64_closed"
   ],
   "note": ""
  },
  {
   "property": "C65",
   "status": "proved",
   "theorems": [
    "Verif.RefElem.C65_tables",
    "Verif.RefElem.C65_nodal"
   ],
   "note": "tabulated orders (up to 9)"
  },
  {
   "property": "C46",
   "status": "proved",
   "theorems": [
    "Verif.Geometry.C46_volume",
    "Verif.Geometry.C46_parallelepiped",
    "Verif.Geometry.C46_translation",
    "Verif.Geometry.C46_measure"
   ],
   "note": ""
  },
  {
   "property": "C47",
   "status": "proved",
   "theorems": [
    "Verif.Geometry.C47_center",
    "Verif.Geometry.C47_stored",
    "Verif.Geometry.C47_stored_negation"
   ],
   "note": "the value read through the accessor; what get_vol_hex itself stores uses two nodes of the previous cell (C47_stored, C47_stored_negation) and is hidden by the accessor, which recomputes the average"
  },
  {
   "property": "C48",
   "status": "proved",
   "theorems": [
    "Verif.Geometry.C48_gauss",
    "Verif.Geometry.C48_patch",
    "Verif.Geometry.C48_cell"
   ],
   "note": "tabulated orders (up to 9)"
  },
  {
   "property": "C49",
   "status": "proved",
   "theorems": [
    "Verif.Geometry.C49_volumes",
    "Verif.Geometry.C49_affine",
    "Verif.Geometry.C49_refined"
   ],
   "note": "C49_affine for the tabulated orders (up to 9)"
  },
  {
   "property": "C52",
   "status": "partial",
   "theorems": [
    "Verif.MeshBox.C52_numbering",
    "Verif.MeshBox.C52_cells",
    "Verif.MeshBox.C52_faces",
    "Verif.MeshBox.C52_orientation",
    "Verif.MeshBox.C52_sides_partial",
    "Verif.MeshBox.C52_cell_list",
    "Verif.MeshBox.C52_boundary_negation",
    "Verif.MeshBox.C52_bdy_points"
   ],
   "note": "numbering, incidences, orientation and boundary points proved for every box; the face-to-cell list of a boundary face names an aliased cell instead of the exterior (C52_boundary_negation)"
  },
  {
   "property": "C53",
   "status": "partial",
   "theorems": [
    "Verif.MeshFile.C53_box",
    "Verif.MeshFile.C53_restart_partial",
    "Verif.MeshFile.C53_restart_negation"
   ],
   "note": "character-level model of the writers and the reader; the generator's file is read back faithfully (fewer than 10^9 points); the program's own output is read back with mirrored local nodes and negated volumes (C53_restart_negation)"
  },
  {
   "property": "C54",
   "status": "proved",
   "theorems": [
    "Verif.Average.C54_value",
    "Verif.Average.C54_maximum",
    "Verif.Average.C54_element_value",
    "Verif.Average.C54_boundary",
    "Verif.Average.C54_cycles",
    "Verif.Average.C54_isolated_negation"
   ],
   "note": "every node belonging to some cell; a node in no cell divides by zero (C54_isolated_negation)"
  },
  {
   "property": "C55",
   "status": "partial",
   "theorems": [
    "Verif.Average.C55_tested_partial",
    "Verif.Average.C55_fills_partial",
    "Verif.Average.C55_box_negation"
   ],
   "note": "the fills as actually tested (switch fall-through) characterised for every list; exact for the global and tested shapes; the box fill as configured is refuted (C55_box_negation)"
  },
  {
   "property": "C31",
   "status": "partial",
   "theorems": [
    "Verif.Tensor.C31_line",
    "Verif.Tensor.C31_gauss",
    "Verif.Tensor.C31_lobatto",
    "Verif.Tensor.C31_exact",
    "Verif.Tensor.C31_gauss4d_partial",
    "Verif.Tensor.C31_gauss4d_negation"
   ],
   "note": "orders 1 to 8 (others read uninitialised variables); proved for gauss_2d/3d and lobatto_2d/3d/4d; gauss_4d initialises column 4 instead of 3 and writes out of bounds on arrays of the documented shape (C31_gauss4d_negation)"
  },
  {
   "property": "C50",
   "status": "partial",
   "theorems": [
    "Verif.Blas.C50_matvec_partial",
    "Verif.Blas.C50_matvec_negation",
    "Verif.Blas.C50_empty_negation",
    "Verif.Blas.C50_matmul_partial",
    "Verif.Blas.C50_matmul_negation"
   ],
   "note": "square matrices and single columns proved for every contents of the uninitialised copies; every other shape refuted (overrun or wrong product)"
  },
  {
   "property": "C66",
   "status": "partial",
   "theorems": [
    "Verif.Blas.C66_transpose",
    "Verif.Blas.C66_invert",
    "Verif.Blas.C66_invert_singular",
    "Verif.Blas.C66_invert_shape"
   ],
   "note": "transposition proved for every shape and inversion for every nonsingular matrix, with the documented getrf/getrs contract as a hypothesis (an implementation meeting it is exhibited); for a singular matrix the function returns normally with contents that are no inverse (C66_invert_singular refutes the last clause)"
  },
  {
   "property": "C67",
   "status": "partial",
   "theorems": [
    "Verif.Golub.C67_exact_partial",
    "Verif.Golub.C67_one_negation",
    "Verif.Golub.C67_zero"
   ],
   "note": "every n >= 2 and all alpha, beta > -1, with the documented dstev contract as a hypothesis (an implementation meeting it is exhibited by the spectral theorem); also positive weights and distinct interior points. With one point the routine returns (0, 2) whatever the parameters, exact precisely when alpha = beta = 0 (C67_one_negation)"
  },
  {
   "property": "C56",
   "status": "partial",
   "theorems": [
    "Verif.SubWeights.C56_split",
    "Verif.SubWeights.C56_set_partial",
    "Verif.SubWeights.C56_orders_negation"
   ],
   "note": "orders 1 to 3 (the cases coded), for any symmetric rule and for the tabulated Lobatto rules; order 0 reads out of bounds and orders from 4 on leave the arrays unchanged (C56_orders_negation)"
  },
  {
   "property": "C68",
   "status": "proved",
   "theorems": [
    "Verif.SubWeights.C68_normals"
   ],
   "note": "also: every row has length sqrt 3, not 1 as the name says"
  },
  {
   "property": "C51",
   "status": "partial",
   "theorems": [
    "Verif.Vtk.C51_maps",
    "Verif.Vtk.C51_write",
    "Verif.Vtk.C51_read",
    "Verif.Vtk.C51_reject",
    "Verif.Vtk.C51_roundtrip_partial",
    "Verif.Vtk.C51_orphan_negation",
    "Verif.Vtk.C51_single_negation",
    "Verif.Vtk.C51_reverse"
   ],
   "note": "every order and mesh, given that VTK's PointIndexFromIJK numbers the lattice without repetition (VTK is not in the repository; a transcription of its numbering is shown to meet this for every order); nodes in no element lose their coordinates (C51_orphan_negation) and coordinates are rounded to the number type of VTK's point array (C51_single_negation)"
  },
  {
   "property": "C69",
   "status": "partial",
   "theorems": [
    "Verif.Swage.HighOrder.C69_cells",
    "Verif.Swage.HighOrder.C69_partition",
    "Verif.Swage.HighOrder.C69_gauss",
    "Verif.Swage.HighOrder.C69_vertex",
    "Verif.Swage.HighOrder.C69_polynomial",
    "Verif.Swage.HighOrder.C69_numbering_partial",
    "Verif.Swage.HighOrder.C69_bins_partial",
    "Verif.Swage.HighOrder.C69_positions_partial",
    "Verif.Swage.HighOrder.C69_lattice_partial",
    "Verif.Swage.HighOrder.C69_conforming",
    "Verif.Swage.HighOrder.C69_conforming_edge",
    "Verif.Swage.HighOrder.C69_first_vertex_negation",
    "Verif.Swage.HighOrder.C69_zdir_negation",
    "Verif.Swage.HighOrder.C69_curved_negation",
    "Verif.Geometry.C116_boxes_partial"
   ],
   "note": "positions, cells and conformity proved for every mesh whose first vertex rows are distinct in the x-y plane; same node iff same position proved for box meshes of every order; refuted for a shared first vertex, for rows along z (undefined: the z term of the distance is zero) and for curved elements that leave the vertex bounding box"
  },
  {
   "property": "C70",
   "status": "partial",
   "theorems": [
    "Verif.DetJac.C70_value_partial",
    "Verif.DetJac.C70_polynomial_partial",
    "Verif.DetJac.C70_agree_partial",
    "Verif.DetJac.C70_refined_partial",
    "Verif.DetJac.C70_boxes_partial",
    "Verif.DetJac.C70_gauss_negation",
    "Verif.DetJac.C70_shared_negation"
   ],
   "note": "refuted: the array is written at node numbers, not Gauss point numbers, so entries from num_nodes on are never written and at shared nodes the last element wins; proved: what each node's entry holds, for every mesh; correct where the elements around a node agree, e.g. box meshes"
  },
  {
   "property": "C71",
   "status": "proved",
   "theorems": [
    "Verif.DetJac.C71_mesh",
    "Verif.DetJac.C71_value",
    "Verif.DetJac.C71_annulus",
    "Verif.DetJac.C71_accuracy"
   ],
   "note": "order p >= 1 (for p = 0 the example divides by zero); sine, cosine and pi are the real ones"
  },
  {
   "property": "C72",
   "status": "proved",
   "theorems": [
    "Verif.Lagrange.C72_interp_error",
    "Verif.Lagrange.C72_interp_bound",
    "Verif.Lagrange.C72_der_error",
    "Verif.Lagrange.C72_element"
   ],
   "note": "f is differentiable on the whole line"
  },
  {
   "property": "C73",
   "status": "proved",
   "theorems": [
    "Verif.Geometry.C73_every",
    "Verif.Geometry.C73_volume",
    "Verif.Geometry.C73_measure",
    "Verif.Geometry.C73_linear"
   ],
   "note": "real arithmetic; error bound in terms of the coefficients of the element map"
  },
  {
   "property": "C74",
   "status": "proved",
   "theorems": [
    "Verif.Geometry.C74_closed",
    "Verif.Geometry.C74_affine",
    "Verif.Geometry.C74_volume"
   ],
   "note": "real arithmetic; error bounds in terms of the coefficients of the element map"
  },
  {
   "property": "C75",
   "status": "partial",
   "theorems": [
    "Verif.Average.C75_driver_partial",
    "Verif.Average.C75_shipped",
    "Verif.Average.C75_overflow_negation",
    "Verif.Average.C75_interval_negation",
    "Verif.Average.C75_zero_negation"
   ],
   "note": "real time; the full claim is false of the code: the interval graphics_dt_ival is never used because graphics_time keeps its initial value 1e8, more than 250 dumps overrun graphics_times, and an interval of 0 divides by zero"
  },
  {
   "property": "C76",
   "status": "proved",
   "theorems": [
    "Verif.Average.C76_vtu"
   ],
   "note": "the numbers in the data arrays; XML tags and coordinates not modelled"
  },
  {
   "property": "C77",
   "status": "partial",
   "theorems": [
    "Verif.Average.C77_setup_partial",
    "Verif.Average.C77_single_negation"
   ],
   "note": "proved for every conforming set of cells of a rectilinear grid whose last cell is at most 3% thicker than any other, orders up to 5, with some two cells sharing a node; without shared nodes the setup is undefined (C77_single_negation), and C38 and C42 refute the claim for other meshes"
  },
  {
   "property": "C78",
   "status": "partial",
   "theorems": [
    "Verif.Average.C78_program_partial"
   ],
   "note": "proved for every conforming set of cells of a rectilinear grid whose last cell is at most 3% thicker than any other, with some two cells sharing a node; same restrictions as C77"
  },
  {
   "property": "C79",
   "status": "proved",
   "theorems": [
    "Verif.Average.C79_box_to_average"
   ],
   "note": "real arithmetic before printing; the decimal rounding is any rounding to nearest"
  },
  {
   "property": "C80",
   "status": "proved",
   "theorems": [
    "Verif.Vtk.C80_names",
    "Verif.Vtk.C80_files",
    "Verif.Vtk.C80_other",
    "Verif.Vtk.C80_mesh"
   ],
   "note": "the readers and writers of VTK are parameters; C80_mesh assumes that the reader returns what the writer was given"
  },
  {
   "property": "C81",
   "status": "proved",
   "theorems": [
    "Verif.DetJac.C81_program"
   ],
   "note": "real arithmetic, real sine, cosine and pi; VTK's numbering and writer are parameters"
  },
  {
   "property": "C82",
   "status": "partial",
   "theorems": [
    "Verif.Shape.C82_choose3D_partial",
    "Verif.Shape.C82_choose2D_partial",
    "Verif.Shape.C82_arbitrary_negation"
   ],
   "note": "proved for all fixed-order types; QuadN and HexN leave the pointer unchanged (C82_arbitrary_negation)"
  },
  {
   "property": "C83",
   "status": "partial",
   "theorems": [
    "Verif.ComplexStep.C83_real",
    "Verif.ComplexStep.C83_interp_partial",
    "Verif.ComplexStep.C83_element_partial",
    "Verif.ComplexStep.C83_vertex",
    "Verif.ComplexStep.C83_vertex_negation"
   ],
   "note": "proved at points at least the tolerance away from every vertex; within the tolerance of a vertex the complex step through eval_interp returns derivative 0 (C83_vertex, C83_vertex_negation); exact arithmetic, so the O(h^2) error is the only one"
  },
  {
   "property": "C84",
   "status": "proved",
   "theorems": [
    "Verif.ComplexStep.C84_legendre",
    "Verif.ComplexStep.C84_element",
    "Verif.ComplexStep.C84_real"
   ],
   "note": "exact arithmetic, so the O(h^2) error is the only one"
  },
  {
   "property": "C85",
   "status": "partial",
   "theorems": [
    "Verif.Golub.C85_eig_partial",
    "Verif.Golub.C85_const_negation"
   ],
   "note": "proved under the documented contract of LAPACK dstev; the const argument subdiag is overwritten (C85_const_negation)"
  },
  {
   "property": "C86",
   "status": "proved",
   "theorems": [
    "Verif.Average.C86_converge",
    "Verif.Average.C86_settles",
    "Verif.Average.C86_floating_negation",
    "Verif.Average.C86_program_partial"
   ],
   "note": "real arithmetic; C86_converge and C86_settles cover every valid mesh; C86_program_partial shows that the meshes of the program (grids, as in C78) meet the assumption"
  },
  {
   "property": "C87",
   "status": "proved",
   "theorems": [
    "Verif.Average.C87_box_to_steady",
    "Verif.Average.C87_program_partial",
    "Verif.Average.C87_linear_negation"
   ],
   "note": "real arithmetic; C87_box_to_steady for every box of the generator, C87_program_partial for the grids of C78; C87_linear_negation: the limit is not linear in x"
  },
  {
   "property": "C88",
   "status": "proved",
   "theorems": [
    "Verif.Average.C88_bounds",
    "Verif.Average.C88_accuracy",
    "Verif.Average.C88_program_partial",
    "Verif.Average.C88_box"
   ],
   "note": "exponent range unbounded; the mesh is the one set up in exact arithmetic; C88_box for every box of the generator, C88_program_partial for the grids of C78"
  },
  {
   "property": "C89",
   "status": "partial",
   "theorems": [
    "Verif.LU.C89_ret",
    "Verif.LU.C89_factor",
    "Verif.LU.C89_solve",
    "Verif.LU.C89_forward",
    "Verif.LU.C89_invert",
    "Verif.LU.C89_determ",
    "Verif.LU.C89_growth_partial",
    "Verif.LU.C89_equilibrated_partial",
    "Verif.LU.C89_stability_negation"
   ],
   "note": "the bounds in terms of the computed factors are proved in full; the last sentence is false: slam.cpp multiplies by the row scale factors instead of dividing, and C89_stability_negation gives a 2x2 system on which double precision returns (0,1) instead of about (1,1); exponent range unbounded, no fused multiply-add"
  },
  {
   "property": "C90",
   "status": "partial",
   "theorems": [
    "Verif.Int32.C90_refine_same",
    "Verif.Int32.C90_refine_fits",
    "Verif.Int32.C90_refine_overflow",
    "Verif.Int32.C90_cube_fits",
    "Verif.Int32.C90_cube_overflow",
    "Verif.Int32.C90_unit_fits",
    "Verif.Int32.C90_unit_negation",
    "Verif.Int32.C90_tiny_negation",
    "Verif.Int32.C90_patches_same",
    "Verif.Int32.C90_patches_fits",
    "Verif.Int32.C90_patches_overflow",
    "Verif.Int32.C90_patches_cube",
    "Verif.Int32.C90_plate_negation",
    "Verif.Int32.C90_high_same",
    "Verif.Int32.C90_high_fits",
    "Verif.Int32.C90_high_cube_fits",
    "Verif.Int32.C90_high_negation"
   ],
   "note": "false as stated: the keys overflow on a unit cube of n^3 cells refined to order p with p*n >= 117 (C90_unit_negation), on one cell of size <= 1e-4 (C90_tiny_negation), on n^3 elements of order p with n*p^2 >= 185 in refine_high_order_mesh (C90_high_negation) and in build_patch_connectivity on a plate-shaped cell (C90_plate_negation); proved: without overflow the result is that of exact integers, and sufficient conditions for no overflow (e.g. p*n <= 92 on the unit-cell cube); rounding not modelled here"
  },
  {
   "property": "C91",
   "status": "partial",
   "theorems": [
    "Verif.Swage.World.C91_access",
    "Verif.Swage.World.C91_write",
    "Verif.Swage.World.C91_gauss",
    "Verif.Swage.World.C91_global_partial",
    "Verif.Swage.World.C91_frame_partial",
    "Verif.Swage.World.C91_average",
    "Verif.Swage.World.C91_local_negation",
    "Verif.Swage.World.C91_new_negation",
    "Verif.Swage.World.C91_clobber_negation",
    "Verif.Swage.World.C91_count_negation"
   ],
   "note": "proved for the Gauss points of every mesh and for the patch and cell points of the global object; false otherwise: build_patch_connectivity (swage.cpp:1642-1643) allocates the patch and cell points of the global object mesh instead of those of the mesh it is called for (C91_local_negation, C91_new_negation) and so destroys what is stored there (C91_clobber_negation); num_gauss_cell_pts() is never set (C91_count_negation)"
  },
  {
   "property": "C92",
   "status": "partial",
   "theorems": [
    "Verif.Swage.Refine.C92_aligned",
    "Verif.Swage.Refine.C92_grid_partial",
    "Verif.Swage.Refine.C92_rotated_negation"
   ],
   "note": "proved: points on a common side of two elements numbered the same way are the same floating-point numbers, for every mesh and order up to 9 (C92_aligned); on rectilinear grids, orders up to 5, with cells at least 1e6 u (A+1) thick, the whole refined mesh is that of exact arithmetic (C92_grid_partial); false in general: in double precision a neighbour numbered with its axes turned by 90 degrees computes the common face centre with another last bit and gets another node (C92_rotated_negation); exponent range unbounded, no fused multiply-add"
  },
  {
   "property": "C93",
   "status": "partial",
   "theorems": [
    "Verif.Swage.Key.C93_aligned",
    "Verif.Swage.Key.C93_dyadic",
    "Verif.Swage.Key.C93_grid_partial",
    "Verif.Swage.Key.C93_negation"
   ],
   "note": "Rounded arithmetic (any rounding; binary64 for the failure). Proved: aligned neighbours share the patch on every mesh; with two spare bits any two sides with the same nodes do; on rectilinear grids the patches are exactly the faces if 2^21 u A^3 <= s^3. Refuted for turned neighbours by a two-cell mesh with double precision coordinates (C93_negation)."
  },
  {
   "property": "C94",
   "status": "proved",
   "theorems": [
    "Verif.Fp.Interp.C94_weights",
    "Verif.Fp.Interp.C94_basis",
    "Verif.Fp.Interp.C94_interp",
    "Verif.Fp.Interp.C94_interp_error",
    "Verif.Fp.Interp.C94_vertex",
    "Verif.Fp.Interp.C94_elem_basis",
    "Verif.Fp.Interp.C94_elem_approx",
    "Verif.Fp.Interp.C94_elem_error"
   ],
   "note": "Rounded arithmetic (any rounding with u <= 1/2; instances in binary64): weights 3(N-1), basis functions 5N, interpolants 6N+1, element basis 15N+2 and element interpolants 18N+3 relative errors."
  },
  {
   "property": "C95",
   "status": "partial",
   "theorems": [
    "Verif.Fp.Interp.C95_vertex_partial",
    "Verif.Fp.Interp.C95_constant_partial",
    "Verif.Fp.Interp.C95_away_partial",
    "Verif.Fp.Interp.C95_negation"
   ],
   "note": "Proved at the vertices (7N+3 relative errors on the differences of the data; exactly zero for constant data) and elsewhere with the factor 1/distance to the nearest vertex. Without that factor refuted in binary64: derivative 0.05 for constant data 1 at a point ten tolerances from a vertex (C95_negation)."
  },
  {
   "property": "C96",
   "status": "partial",
   "theorems": [
    "Verif.Fp.Geom.C96_volume",
    "Verif.Fp.Geom.C96_double",
    "Verif.Fp.Geom.C96_grid",
    "Verif.Fp.Geom.C96_center",
    "Verif.Fp.Geom.C96_negation"
   ],
   "note": "Proved for every rounding: error at most 19u/(1-19u) * 12 A B C with bounds A, B, C of the coordinates (C96_volume; L^3/2^45 in double precision and the sign of larger volumes, C96_double); relative error 2u+u^2 for coordinates on a dyadic grid with enough spare bits (C96_grid); cell centres (C96_center). Independence of the position is false: in double precision a 1 x 1 x 123456789 box with integer coordinates below 2^30 gets a negative volume (C96_negation)."
  },
  {
   "property": "C97",
   "status": "proved",
   "theorems": [
    "Verif.Fp.Geom.C97_entries",
    "Verif.Fp.Geom.C97_det",
    "Verif.Fp.Geom.C97_inverse",
    "Verif.Fp.Geom.C97_far"
   ],
   "note": "For every rounding with |fl x - x| <= u|x|. C97_far: the determinant is right for the box for which get_vol_hex returns a negative volume (C96_negation)."
  },
  {
   "property": "C98",
   "status": "proved",
   "theorems": [
    "Verif.Fp.Geom.C98_volumes",
    "Verif.Fp.Geom.C98_positive",
    "Verif.Fp.Geom.C98_lattice"
   ],
   "note": "For every rounding; C98_lattice is positivity in double precision for all orders up to 9. The determinants are inputs here; their own error is C97."
  },
  {
   "property": "C99",
   "status": "proved",
   "theorems": [
    "Verif.Fp.Legendre.C99_eval",
    "Verif.Fp.Legendre.C99_double",
    "Verif.Fp.Legendre.C99_approx",
    "Verif.Fp.Legendre.C99_basis",
    "Verif.Fp.Legendre.C99_element"
   ],
   "note": "For every rounding with |fl x - x| <= u|x| and exact small integers; overflow and underflow are not modelled."
  },
  {
   "property": "C100",
   "status": "proved",
   "theorems": [
    "Verif.Fp.Legendre.C100_eval",
    "Verif.Fp.Legendre.C100_approx",
    "Verif.Fp.Legendre.C100_basis",
    "Verif.Fp.Legendre.C100_element"
   ],
   "note": "std::tgamma is a parameter with relative error epsilon at the integers used; std::pow(0.5, k) is exact. Overflow (tgamma above 171!) is not modelled."
  },
  {
   "property": "C101",
   "status": "partial",
   "theorems": [
    "Verif.Fp.MeshBox.C101_order",
    "Verif.Fp.MeshBox.C101_positive_partial",
    "Verif.Fp.MeshBox.C101_collapse",
    "Verif.Fp.MeshBox.C101_negation"
   ],
   "note": "Never an inverted cell (C101_order, any rounding); positive volumes and placement if the spacing is at least 1.00001e-5 times the largest coordinate (C101_positive_partial); false for finer meshes: in one decade, more cells than the grid of six digits collapse a layer (C101_collapse), e.g. 1000 cells from 1000 to 1001 in double precision (C101_negation). Overflow is not modelled."
  },
  {
   "property": "C102",
   "status": "partial",
   "theorems": [
    "Verif.MeshFile.C102_cut_partial",
    "Verif.MeshFile.C102_negation",
    "Verif.MeshFile.readMeshT_of_readMesh"
   ],
   "note": "The reader is modelled with its unchecked fscanf and fgetc calls. C102_cut_partial says for every cut point what read_mesh does (a cut between the header and the first digit of the number of points leaves num_nodes uninitialised and is not described further); C102_negation gives, for every box mesh with at least 11 points, a cut that yields a wrong mesh without reading uninitialised memory; readMeshT_of_readMesh: on complete files the reader agrees with the one of C53."
  },
  {
   "property": "C103",
   "status": "proved",
   "theorems": [
    "Verif.Legendre.Rec.C103_legendre",
    "Verif.Legendre.Rec.C103_jacobi",
    "Verif.Legendre.Rec.C103_derivative",
    "Verif.Legendre.Rec.C103_approx",
    "Verif.Legendre.Rec.C103_der_approx",
    "Verif.Legendre.Rec.C103_exponential"
   ],
   "note": "The recursion is modelled with a signed 32-bit order, a finite number of stack frames and a call counter; each theorem is an equivalence: it returns this value after this many calls iff the order is in the range and the stack suffices."
  },
  {
   "property": "C104",
   "status": "proved",
   "theorems": [
    "Verif.Fp.Elem.C104_basis",
    "Verif.Fp.Elem.C104_partials",
    "Verif.Fp.Elem.C104_partition",
    "Verif.Fp.Elem.C104_position",
    "Verif.Fp.Elem.C104_nodal",
    "Verif.Fp.Elem.C104_vertices",
    "Verif.Fp.Elem.C104_linear",
    "Verif.Fp.Elem.C104_linear_partition",
    "Verif.Fp.Elem.C104_linear_position",
    "Verif.Fp.Elem.C104_hex32_negation"
   ],
   "note": "The rounded routines are generated from the exact model with a rounding after each operation in source order, the table entries 1/3 rounded. Overflow, underflow and contraction to fused operations are left out. The partials are compared with the exact value of the same routine (C24 says where that is not the derivative)."
  },
  {
   "property": "C105",
   "status": "proved",
   "theorems": [
    "Verif.Ensight.C105_crash",
    "Verif.Ensight.C105_finished",
    "Verif.Ensight.C105_durable",
    "Verif.Ensight.C105_average",
    "Verif.Ensight.C105_box",
    "Verif.Ensight.C105_stale_negation",
    "Verif.Ensight.C105_window_negation"
   ],
   "note": "A process that dies loses any suffix of what it printed to the open file; closed files are whole. Crashes of the operating system and full disks are not modelled. The viewer is a reader of case files in Ensight/Spec that ignores a line without newline and wants as many time values as steps. At most 10^5 dumps (the name pattern has five digits; graphics_times has room for 250, C75). The negations show that a rerun over old files, and the moment of rewriting the case file, are not safe."
  },
  {
   "property": "C106",
   "status": "proved",
   "theorems": [
    "Verif.VtuFile.C106_vtu",
    "Verif.VtuFile.C106_cut",
    "Verif.VtuFile.C106_crash",
    "Verif.VtuFile.C106_collapse_negation",
    "Verif.VtuFile.C106_ids_negation",
    "Verif.VtuFile.C106_lost_negation"
   ],
   "note": "Character-level model of vtk_writer; %f rounds to a nearest sixth decimal (ties arbitrary), the conversion of the cell number to float is any rounding to a nearest number with 24 bits. The viewer is a line-oriented reader in VtuFile/Spec that wants the closing tag. Infinities, NaN and numbers beyond int are not modelled; main has the call of vtk_writer commented out."
  },
  {
   "property": "C107",
   "status": "proved",
   "theorems": [
    "Verif.Fp.HexN.C107_basis1d",
    "Verif.Fp.HexN.C107_nodal1d",
    "Verif.Fp.HexN.C107_der1d",
    "Verif.Fp.HexN.C107_der1d_vertex",
    "Verif.Fp.HexN.C107_hexn_basis",
    "Verif.Fp.HexN.C107_hexn_nodal",
    "Verif.Fp.HexN.C107_hexn_partials",
    "Verif.Fp.HexN.C107_hexn_sum",
    "Verif.Fp.HexN.C107_hexn_partial_sums",
    "Verif.Fp.HexN.C107_quadn",
    "Verif.Fp.HexN.C107_quadn_nodal",
    "Verif.Fp.HexN.C107_quadn_position",
    "Verif.Fp.HexN.C107_quadn_position_vertex",
    "Verif.Fp.HexN.C107_sum_negation",
    "Verif.Fp.HexN.C107_der1d_negation"
   ],
   "note": "Rounded arithmetic without overflow and underflow (Fp/Arith); the 1-D positions are any reals and taken as given, so the bounds are relative to the stored vertices."
  },
  {
   "property": "C108",
   "status": "partial",
   "theorems": [
    "Verif.Average.C108_bounds",
    "Verif.Average.C108_accuracy",
    "Verif.Average.C108_program_partial",
    "Verif.Average.C108_box",
    "Verif.Average.C108_underflow_negation"
   ],
   "note": "IEEE double precision with overflow (none) and gradual underflow. Bounds and accuracy for all meshes without isolated nodes; program theorem partial because it is restricted to grids as in C78. Negation: constants below 2^-1071 are averaged to 0, so constants and positivity are not kept at the end of the exponent range."
  },
  {
   "property": "C109",
   "status": "proved",
   "theorems": [
    "Verif.Fp.GeomI.C109_volume",
    "Verif.Fp.GeomI.C109_overflow_negation",
    "Verif.Fp.GeomI.C109_underflow_negation"
   ],
   "note": "IEEE double precision with overflow (none, standing for infinity or NaN) and gradual underflow. The two negations show that the statement fails outside its hypotheses: 12 times the volume overflows although the volume is finite; products y*z underflow although x*y*z is normal."
  },
  {
   "property": "C110",
   "status": "proved",
   "theorems": [
    "Verif.Fp.ElemI.C110_basis",
    "Verif.Fp.ElemI.C110_partials",
    "Verif.Fp.ElemI.C110_position",
    "Verif.Fp.ElemI.C110_nodal",
    "Verif.Fp.ElemI.C110_vertices",
    "Verif.Fp.ElemI.C110_overflow_negation",
    "Verif.Fp.ElemI.C110_hex32_negation"
   ],
   "note": "IEEE double precision with overflow (none, standing for infinity or NaN) and gradual underflow. Positions for every class but Hex32, whose routine reads past its vertices (C27). Exactness at the vertices for all classes but Quad12 and Hex32, whose reference vertices +-1/3 are not doubles. The negation shows that the bound on the coordinates cannot be dropped."
  },
  {
   "property": "C111",
   "status": "proved",
   "theorems": [
    "Verif.Fp.Cx.C111_eval",
    "Verif.Fp.Cx.C111_double",
    "Verif.Fp.Cx.C111_approx",
    "Verif.Fp.Cx.C111_approx_double",
    "Verif.Fp.Cx.C111_basis",
    "Verif.Fp.Cx.C111_basis_double"
   ],
   "note": "std::complex<double> as pairs with a rounding after every operation on the parts, without fused operations; unbounded exponent range (an imaginary part that underflows is not covered). The coefficients of the expansion are real."
  },
  {
   "property": "C112",
   "status": "proved",
   "theorems": [
    "Verif.Geometry.C112_cell",
    "Verif.Geometry.C112_boundary",
    "Verif.Geometry.C112_moved",
    "Verif.Geometry.C112_grid_patches",
    "Verif.Geometry.C112_grid",
    "Verif.Geometry.C112_refined",
    "Verif.Geometry.C112_cube",
    "Verif.Fp.Geom.C112_rounded",
    "Verif.Fp.Geom.C112_rounded_grid",
    "Verif.Fp.Geom.C112_rounded_cube"
   ],
   "note": "Volumes as real numbers (C46 is the routine), and in rounded arithmetic (C96 is the routine) with the error of C96 for each cell. Consistent numbering (`Oriented`): two sides with the same nodes list them in opposite orders; proved for every grid and refined grid. The keys of build_patch_connectivity must tell sides apart exactly when their nodes differ, which is proved for grids (C41)."
  },
  {
   "property": "C113",
   "status": "partial",
   "theorems": [
    "Verif.Concurrent.C113_schedule_partial",
    "Verif.Concurrent.C113_history",
    "Verif.Concurrent.C113_shared_negation",
    "Verif.Concurrent.C113_work_negation"
   ],
   "note": "The statement for threads in general is false of the code (two negations): the digits of an index (`ijk`) and the work array (`C`) are members of the object, so two threads that use one object can be given wrong values. Proved for programs in which two threads that use the same object do not both use `ijk` and not both use `C` (different objects, or one thread only eval_basis, for Legendre elements also eval_grad_basis, and the other only eval_approx, eval_grad_approx), and for one thread without restriction. Single reads and writes are interleaved; as no two threads are ever about to access the same entry (third conclusion), weaker memory models give no other results. Elements over real numbers; points as in C09."
  },
  {
   "property": "C114",
   "status": "partial",
   "theorems": [
    "Verif.Heap.C114_memory_partial",
    "Verif.Heap.C114_leak_negation",
    "Verif.Heap.C114_copy_negation",
    "Verif.Heap.C114_init_negation",
    "Verif.Heap.C114_average"
   ],
   "note": "The statement is false of the code: `delete [] w, C;`, `delete[] a, b, c;` and `delete[] a, ipiv, b;` give back only the first block, the destructor of LegendreElement and eig_sym_tri give back nothing of `C` and `diag_copy`, a state object initialised again forgets its blocks, and copies share their blocks (three negations). Proved: without copies, no block is given back twice, and the memory in use is exactly that of the existing objects plus the stated part of every destroyed element, repeated initialisation and call; nothing is left of the state of the Average example. Allocation failures and the memory of MATAR arrays are not modelled."
  },
  {
   "property": "C115",
   "status": "proved",
   "theorems": [
    "Verif.Geometry.C115_surface",
    "Verif.Geometry.C115_volume",
    "Verif.Geometry.C115_measure",
    "Verif.Geometry.C115_computed"
   ],
   "note": "Exact real arithmetic. That every element has such a map (of which CurvedBy speaks) is C73_every. Non-vacuity: the cube of order 2 whose centre node has been moved far outside still gets the volume 8."
  },
  {
   "property": "C116",
   "status": "proved",
   "theorems": [
    "Verif.Geometry.C116_volume",
    "Verif.Geometry.C116_computed"
   ],
   "note": "Exact real arithmetic. Elements glued with their lattice directions turned against each other: C117. Non-vacuity: two elements of order 2 side by side. That refine_high_order_mesh produces such a gluing from box meshes is C116_boxes_partial, listed under C69."
  },
  {
   "property": "C117",
   "status": "proved",
   "theorems": [
    "Verif.Geometry.C117_volume",
    "Verif.Geometry.C117_computed",
    "Verif.Geometry.Glued.any"
   ],
   "note": "Exact real arithmetic. Generalises C116 (Glued.any). Non-vacuity: two elements of order 2 side by side, the second turned by 180 degrees."
  },
  {
   "property": "C118",
   "status": "proved",
   "theorems": [
    "Verif.Geometry.C118_volume",
    "Verif.Geometry.C118_computed"
   ],
   "note": "Exact real arithmetic. Non-vacuity: two elements of order 2 side by side, and the same with the second turned by 180 degrees and the middle node of the common side moved to any place."
  },
  {
   "property": "C119",
   "status": "proved",
   "theorems": [
    "Verif.Geometry.C119_volume",
    "Verif.Geometry.C119_computed"
   ],
   "note": "Exact real arithmetic. Corresponding outer sides are whole sides of elements (a side split into several is not covered). Non-vacuity: the cube as one element of order 1 and as one of order 2 whose centre node has been moved outside."
  }
 ]
}