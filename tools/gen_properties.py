#!/usr/bin/env python3
"""Writes ../properties.jsonl from the list below (kept as a script only for readability)."""
import json, os
P = []
def p(id, title, statement, quantifier, why, anchors):
    P.append(dict(id=id, title=title, statement=statement, quantifier=quantifier,
                  why_tests_cant=why, anchors=anchors))
A = lambda f, *s: {"file": f, "symbols": list(s)}

p("C01", "mixed-radix encode after decode is the identity",
  "For every number of digits Nb and all non-zero radices b whose product fits in SizeType, converting any x < b[0]*...*b[Nb-1] with base_10_to_mixed_radix and converting the digits back with mixed_radix_to_base_10 returns x, and every digit y[i] produced is < b[i]. If some radix read is 0 the call divides by zero (undefined).",
  "all digit counts, all radix vectors, all 64-bit x below the product",
  "the digit count and the radices are unbounded; wrap-around of SizeType appears only for huge products",
  [A("common/common.cpp", "common::base_10_to_mixed_radix", "common::mixed_radix_to_base_10")])
p("C02", "mixed-radix decode after encode is the identity",
  "For every digit vector x with x[i] < b[i] (product of radices fits in SizeType), base_10_to_mixed_radix(mixed_radix_to_base_10(x)) returns exactly x, and mixed_radix_to_base_10(x) < b[0]*...*b[Nb-1]; hence multi-index -> linear index is a bijection onto [0, prod b).",
  "all digit counts, radices and in-range digit vectors",
  "an injectivity claim over an unbounded family of index spaces",
  [A("common/common.cpp", "common::mixed_radix_to_base_10", "common::base_10_to_mixed_radix")])
p("C03", "partial-derivative orders survive encode/decode",
  "decode_partial_derivative(encode_partial_derivative(nx,ny,nz)) returns (nx,ny,nz) for every triple for which the encoding is defined; the encoder is undefined (shift count out of range) when any order is 0 or too large for a 32-bit int shift.",
  "all 64-bit order triples",
  "2^192 inputs; the failing ones are undefined behaviour that a test on one machine masks",
  [A("common/common.cpp", "common::encode_partial_derivative", "common::decode_partial_derivative")])
p("C04", "decoding any derivative encoding terminates with the documented orders",
  "For every 64-bit encoding e, decode_partial_derivative terminates and returns, per coordinate direction d, the sum of all p such that bit 3*(p-1)+d of e is set.",
  "all 64-bit encodings",
  "2^64 inputs",
  [A("common/common.cpp", "common::decode_partial_derivative")])
p("C05", "coincident-vertex search",
  "lagrange::find_coincident_vertex returns j when z[j] is the only vertex within tolerance of x, and an index that is not a valid vertex (SizeType(-1)) when no vertex is within tolerance. When two or more vertices are within tolerance the returned index is not any of them in general.",
  "all vertex counts, vertex positions and query points",
  "unbounded vertex counts, real-valued positions",
  [A("elements/lagrange_polynomials.cpp", "lagrange::find_coincident_vertex"), A("common/common.h", "common::almost_equal")])
p("C06", "barycentric evaluation of a Lagrange basis function",
  "With weights from compute_barycentric_weights on pairwise distinct vertices, lagrange::eval(Nv,i,ic,Z,w,X) equals the i-th Lagrange basis polynomial at X for every X (coincident or not): it is 1 at vertex i, 0 at every other vertex, and the unique polynomial of degree < Nv with these values. (A point within the coincidence tolerance of a vertex is treated as that vertex.)",
  "all vertex counts, all distinct vertex sets, all evaluation points",
  "uniqueness/equality of polynomials at all points for every N",
  [A("elements/lagrange_polynomials.cpp", "lagrange::compute_barycentric_weights", "lagrange::eval", "lagrange::find_coincident_vertex")])
p("C07", "barycentric interpolation reproduces polynomials",
  "lagrange::eval_interp returns p(X) for the unique polynomial p of degree < Nv through the data (Z[j], c[j]); in particular it reproduces every polynomial of degree < Nv from its vertex values and equals sum_j c[j]*eval(j,X) (partition of unity for constant data).",
  "all vertex counts, data, evaluation points",
  "quantifies over all polynomials and all points",
  [A("elements/lagrange_polynomials.cpp", "lagrange::eval_interp")])
p("C08", "derivatives of the Lagrange interpolant",
  "lagrange::eval_der_interp(n, ...) returns the n-th derivative at X of the interpolating polynomial, for every order n >= 1, and lagrange::eval_der(n, i, ...) that of the i-th basis function.",
  "all derivative orders, vertex sets, data and points (coincident and not)",
  "identity between an iterative divided-difference scheme and analytic derivatives for every N and n; the existing test only samples low orders",
  [A("elements/lagrange_polynomials.cpp", "lagrange::eval_der_interp", "lagrange::eval_der")])
p("C09", "LagrangeElement basis is the nodal tensor-product basis",
  "LagrangeElement::eval_basis(I, X) is the product of the three 1-D basis polynomials selected by the mixed-radix digits of I; at the reference vertex with multi-index J it is 1 if I = J and 0 otherwise; the basis functions sum to 1 at every X.",
  "all element orders, all basis indices, all reference points",
  "unbounded order, real-valued points",
  [A("elements/lagrange_element.cpp", "LagrangeElement::eval_basis")])
p("C10", "sum-factorised evaluation equals the basis expansion",
  "LagrangeElement::eval_approx(c, X) equals sum_I c[I]*eval_basis(I,X), and eval_grad_approx(c,X) equals sum_I c[I]*eval_grad_basis(I,X), for every coefficient array, despite the shared workspace being overwritten between dimensions.",
  "all orders, coefficients and points",
  "an equality of a stateful three-pass algorithm with its specification for every size",
  [A("elements/lagrange_element.cpp", "LagrangeElement::eval_approx", "LagrangeElement::eval_grad_approx", "LagrangeElement::eval_grad_basis")])
p("C11", "element Jacobian, determinant and inverse are consistent",
  "LagrangeElement::eval_det_jac is the determinant of the matrix filled by eval_jac and, when it is non-zero, eval_inv_jac fills the two-sided inverse of that matrix.",
  "all vertex coordinates and reference points with a non-singular Jacobian",
  "algebraic identity over all real matrices",
  [A("elements/lagrange_element.cpp", "LagrangeElement::eval_jac", "LagrangeElement::eval_det_jac", "LagrangeElement::eval_inv_jac")])
p("C12", "Legendre evaluation is the orthogonal Legendre family",
  "legendre::eval(n, X) is a polynomial in X of degree n with P_n(1) = 1, P_n(-X) = (-1)^n P_n(X), and the functions are orthogonal on [-1,1] with squared norm 2/(2n+1).",
  "all degrees n >= 0, all X",
  "orthogonality for every pair of degrees is an unbounded integral identity",
  [A("elements/legendre_polynomials.cpp", "legendre::eval")])
p("C13", "Legendre derivatives",
  "legendre::eval_der(n, k, X) is the k-th derivative of legendre::eval(n, .) at X for every n and every k >= 1, and 0 for k > n.",
  "all degrees, orders and points",
  "needs the Jacobi/Gegenbauer derivative identity for all n,k",
  [A("elements/legendre_polynomials.cpp", "legendre::eval_der"), A("elements/jacobi_polynomials.cpp", "jacobi::eval", "jacobi::eval_der")])
p("C14", "Jacobi derivatives for general parameters",
  "jacobi::eval_der(n,k,alpha,beta,X) is the k-th derivative of jacobi::eval(n,alpha,beta,.) at X for all alpha, beta > -1, n and k.",
  "all parameters, degrees, orders and points",
  "two real parameters plus unbounded degrees; the tests only use alpha = beta = 0",
  [A("elements/jacobi_polynomials.cpp", "jacobi::eval_der"), A("elements/jacobi_polynomials.h", "jacobi::a", "jacobi::b", "jacobi::c")])
p("C15", "LegendreElement expansion",
  "LegendreElement::eval_approx and eval_grad_approx equal the sums over all basis indices of coefficient times eval_basis / eval_grad_basis.",
  "all orders, coefficients, points",
  "same as C10 with a different workspace layout",
  [A("elements/legendre_element.cpp", "LegendreElement::eval_approx", "LegendreElement::eval_grad_approx", "LegendreElement::eval_basis")])
p("C16", "equispaced point distribution",
  "equispaced_points(N,Zl,Zr,Z) with N >= 2 and Zl < Zr produces strictly increasing points from Zl to Zr with constant spacing; with N = 1 the only point is not finite (0/0).",
  "all N and intervals",
  "unbounded N",
  [A("elements/point_distributions.cpp", "equispaced_points")])
p("C17", "LU factorisation with pivoting",
  "If LU_decompos returns 1 on a non-singular n x n matrix, the stored factors multiply to the row-permuted input (L unit lower triangular, U upper triangular, permutation recorded in indx with sign parity); it returns 0 exactly when some row of the input is zero; slam.h says 0 is returned for every singular matrix.",
  "all sizes n and all real matrices",
  "a loop-carried in-place algorithm for every n and every pivot order",
  [A("slam/slam.cpp", "slam::LU_decompos")])
p("C18", "LU solve",
  "After a successful LU_decompos of a non-singular A, LU_backsub overwrites b with the unique x such that A x = b.",
  "all sizes, matrices, right-hand sides",
  "unbounded n; correctness of the permutation unscrambling with the leading-zero skip depends on data",
  [A("slam/slam.cpp", "slam::LU_backsub", "slam::LU_decompos")])
p("C19", "LU inverse and determinant",
  "After a successful LU_decompos of a non-singular A, LU_invert fills the inverse of A and LU_determ returns det A.",
  "all sizes and matrices",
  "unbounded n",
  [A("slam/slam.cpp", "slam::LU_invert", "slam::LU_determ")])
p("C20", "3x3 matrix inverse helper",
  "elements::mat_inverse fills the two-sided inverse of every 3x3 matrix with non-zero determinant.",
  "all 3x3 matrices",
  "identity over R^9",
  [A("elements/elements.cpp", "elements::mat_inverse")])
p("C21", "physical Jacobians and determinants 2D/3D/4D",
  "jacobian_2d/3d/4d fill J(j,k) = sum over vertices v of x_k(v) * d(basis_v)/d(xi_j), whatever J held before, and return det J.",
  "all element geometries and points",
  "identity over all real vertex coordinates",
  [A("elements/elements.cpp", "elements::jacobian_2d", "elements::jacobian_3d", "elements::jacobian_4d")])
p("C22", "inverse Jacobians 2D/3D/4D",
  "jacobian_inverse_2d/3d/4d fill the inverse of the supplied Jacobian when given its non-zero determinant.",
  "all non-singular Jacobians",
  "identity over all real matrices",
  [A("elements/elements.cpp", "elements::jacobian_inverse_2d", "elements::jacobian_inverse_3d", "elements::jacobian_inverse_4d")])
p("C23", "serendipity and linear shape functions are nodal",
  "For Quad4, Quad8, Quad12, Hex8, Hex20, Hex32 and Tess16 the basis routine returns functions that are 1 at their own reference vertex, 0 at all others, and sum to 1 at every point of the reference element.",
  "all points of the reference space (real), all vertices",
  "partition of unity at all points",
  [A("elements/elements.cpp", "Quad4::basis", "Quad8::basis", "Quad12::basis", "Hex8::basis", "Hex20::basis", "Hex32::basis", "Tess16::basis")])
p("C24", "shape-function partials are the derivatives of the shape functions",
  "For each fixed-order element, partial_xi_basis, partial_eta_basis, partial_mu_basis (and partial_tau_basis) return the partial derivatives of the functions returned by basis at every point.",
  "all points, all vertices, all element types",
  "calculus identity at all points",
  [A("elements/elements.cpp", "Quad4::partial_xi_basis", "Quad8::partial_xi_basis", "Quad12::partial_xi_basis", "Hex8::partial_xi_basis", "Hex20::partial_xi_basis", "Hex32::partial_xi_basis", "Tess16::partial_tau_basis")])
p("C25", "vertex-to-node maps",
  "vert_node_map(v) of each element is the index of the sub-cell lattice node located at reference vertex v; in particular it is injective.",
  "all vertices of every element type",
  "table relation that no test exercises; must be consistent with node ordering for every vertex",
  [A("elements/elements.cpp", "Quad4::vert_node_map", "Quad8::vert_node_map", "Quad12::vert_node_map", "Hex8::vert_node_map", "Hex20::vert_node_map", "Hex32::vert_node_map", "HexN::vert_node_map")])
p("C26", "surface dof lists",
  "surface_to_dof_lid(s, .) of each element lists exactly the vertices lying on one face/edge of the reference element, each once, and the listed faces are all distinct.",
  "all surfaces of all fixed-order elements",
  "completeness of tables",
  [A("elements/elements.cpp", "Quad4::Quad4", "Quad8::Quad8", "Quad12::Quad12", "Hex8::Hex8", "Hex20::Hex20", "Hex32::Hex32")])
p("C27", "physical_position is the isoparametric map",
  "physical_position(xi, vertices) reads only the supplied vertices and returns sum_v vertices(v)*basis_v(xi), independent of the previous content of the output; hence it maps reference vertices to physical vertices and affine geometry exactly.",
  "all points, all vertex coordinates, all prior output contents",
  "memory-safety and functional claim for all inputs",
  [A("elements/elements.cpp", "Quad4::physical_position", "Hex8::physical_position", "Hex20::physical_position", "Hex32::physical_position", "QuadN::physical_position", "Tess16::physical_position")])
p("C28", "arbitrary-order 1-D Lagrange interpolants and derivatives",
  "QuadN::lagrange_1D and HexN::lagrange_basis_1D / lagrange_derivative_1D return, for pairwise distinct nodes, the Lagrange basis polynomials and their first derivatives at the point.",
  "all orders, node positions, points",
  "unbounded order",
  [A("elements/elements.cpp", "QuadN::lagrange_1D", "HexN::lagrange_basis_1D", "HexN::lagrange_derivative_1D")])
p("C29", "HexN / QuadN tensor-product basis",
  "HexN::basis / partial_*_basis and QuadN::basis_partials return the tensor products of the 1-D functions in lexicographic vertex order; they are nodal, sum to 1, and the partials sum to 0.",
  "all orders and points",
  "unbounded order",
  [A("elements/elements.cpp", "HexN::basis", "HexN::partial_xi_basis", "HexN::partial_eta_basis", "HexN::partial_mu_basis", "QuadN::basis_partials")])
p("C30", "tabulated quadrature is accurate",
  "legendre_nodes_1D/legendre_weights_1D with num points integrate every polynomial of degree <= 2num-1 over [-1,1], and lobatto_nodes_1D/lobatto_weights_1D every polynomial of degree <= 2num-3, up to rounding of the tabulated literals (relative error at the level of double precision); nodes are increasing, symmetric and inside [-1,1].",
  "all polynomials up to the exactness degree, all tabulated rules",
  "quantifies over all polynomials; a wrong digit in one literal is invisible to smoke tests",
  [A("elements/elements.cpp", "elements::legendre_nodes_1D", "elements::legendre_weights_1D", "elements::lobatto_nodes_1D", "elements::lobatto_weights_1D")])
p("C31", "tensor-product quadrature points",
  "gauss_2d/3d/4d and lobatto_2d/3d/4d enumerate every combination of 1-D points exactly once in lexicographic order with the product weight; so they integrate products of 1-D functions to the product of the 1-D quadratures.",
  "all orders, all integrands",
  "quantifies over all integrands; index arithmetic for every order",
  [A("elements/elements.cpp", "elements::gauss_2d", "elements::gauss_3d", "elements::gauss_4d", "elements::lobatto_2d", "elements::lobatto_3d", "elements::lobatto_4d")])
p("C32", "reference-element index maps are bijections",
  "ref_element node_rid/cell_rid/corner_rid are bijections between (i,j,k) and linear ids; every reference cell belongs to exactly one zone slot; ref_nodes_in_cell / ref_corners_in_cell list the 8 lattice corners of each cell, and every corner belongs to exactly one cell.",
  "all polynomial orders",
  "unbounded order",
  [A("elements/elements.cpp", "ref_element::init", "ref_element::node_rid", "ref_element::cell_rid", "ref_element::corner_rid")])
p("C33", "reference corner weights split node weights",
  "The corner weights computed by ref_element::init are non-negative splits of the nodal quadrature weights: for each node the weights of the corners at that node sum to the node weight, so the total corner weight equals the total quadrature weight.",
  "all orders and nodal weights",
  "sum identity for unbounded order",
  [A("elements/elements.cpp", "ref_element::init")])
p("C34", "reference patch numbering",
  "ref_element::init numbers each reference patch once: two cells that share a face refer to the same patch id, no other cells do, and exactly 3*n*n*(n+1) ids are used for n cells per direction.",
  "all orders",
  "unbounded order; sharing logic via neighbours",
  [A("elements/elements.cpp", "ref_element::init")])
p("C35", "node-to-cell connectivity",
  "After build_node_cell_connectivity, for every node n the list cells_in_node(n, 0..num_cells_in_node(n)-1) contains exactly the (cell,slot) incidences of n, in increasing cell order, and no write is out of bounds.",
  "all meshes (any number of cells and nodes, any valid nodes_in_cell)",
  "quantifies over all meshes",
  [A("swage/swage.cpp", "mesh_t::build_node_cell_connectivity", "mesh_t::cells_in_node", "mesh_t::num_cells_in_node")])
p("C36", "corner connectivity",
  "After build_corner_connectivity every corner id in [0, 8*num_cells) appears in exactly one node's corner list, corners_in_cell(c,l) is a bijection, and corners_in_node(n, .) lists exactly the corners whose cell vertex is n.",
  "all meshes",
  "quantifies over all meshes",
  [A("swage/swage.cpp", "mesh_t::build_corner_connectivity", "mesh_t::corners_in_node", "mesh_t::corners_in_cell")])
p("C37", "cell-to-cell connectivity",
  "After build_cell_cell_connectivity, cells_in_cell(c, .) lists exactly the cells different from c that share at least one node with c, each once; the relation is symmetric; and the builder performs no out-of-bounds access.",
  "all meshes",
  "quantifies over all meshes; the out-of-bounds case appears only for special meshes",
  [A("swage/swage.cpp", "mesh_t::build_cell_cell_connectivity", "mesh_t::cells_in_cell")])
p("C38", "patch connectivity",
  "After build_patch_connectivity two cell sides get the same patch id iff they are the same geometric face, and cells_in_patch lists the (one or two) cells of the patch with -1 marking the boundary.",
  "all conforming meshes",
  "correctness depends on a geometric hash with a mesh-dependent bin size",
  [A("swage/swage.cpp", "mesh_t::build_patch_connectivity", "mesh_t::cells_in_patch")])
p("C39", "element connectivity",
  "After build_element_connectivity elems_in_node lists the element incidences of every node, nodes_in_elem(e,g) is the node at the g-th Gauss point of e, and elems_in_elem lists exactly the other elements sharing a node, each once.",
  "all meshes",
  "quantifies over all meshes",
  [A("swage/swage.cpp", "mesh_t::build_element_connectivity")])
p("C40", "boundary patches",
  "build_bdy_patches lists exactly the patches having a missing neighbour, each once, in increasing order.",
  "all patch tables",
  "quantifies over all meshes",
  [A("swage/swage.cpp", "mesh_t::build_bdy_patches")])
p("C41", "boundary set tagging",
  "After tag_bdys has been called for sets 0..k in increasing order, bdy_patches_in_set(s, .) lists exactly the boundary patches satisfying set s's geometric criterion; calling it with a set index beyond the allocated sets is rejected.",
  "all boundary patch lists, criteria and call sequences",
  "claims about every call history",
  [A("swage/swage.cpp", "mesh_t::tag_bdys", "mesh_t::check_bdy", "mesh_t::init_bdy_sets")])
p("C42", "refinement merges coincident nodes exactly once",
  "refine_mesh assigns the same node id to two Gauss points iff they fall in the same spatial bin, ids are consecutive from 0, and node_coords of an id are the coordinates of its first Gauss point; cells sharing a face or an edge, in any relative orientation, share the nodes on it.",
  "all key sequences (all meshes and bin sizes)",
  "depends on the whole history of hash touches",
  [A("swage/swage.cpp", "swage::refine_mesh"), A("swage/refine_high_order_mesh.cpp", "swage::refine_high_order_mesh")])
p("C43", "refined cells: lattice structure",
  "In refine_mesh, for every mesh whose cells have eight distinct vertices, each element's sub-cells get consecutive global ids that partition [0, num_cells); gauss_in_cell gives the 8 surrounding lattice Gauss points inside the element's Gauss-id range; elems_in_cell inverts cells_in_elem.",
  "all orders and element counts",
  "unbounded order and element count",
  [A("swage/swage.cpp", "swage::refine_mesh")])
p("C44", "refined Gauss points lie in the element",
  "For every mesh whose cells have eight distinct vertices, the physical Gauss-point positions computed by refine_mesh are convex combinations of the 8 element vertices; corner points coincide with vertices; and the map is exact for affine elements.",
  "all vertex coordinates, all Lobatto positions in [-1,1]",
  "real-valued geometry",
  [A("swage/swage.cpp", "swage::refine_mesh")])
p("C45", "element size bookkeeping",
  "init_element derives consistent counts for every order: nodes/gauss points (2p+1)^3, cells (2p)^3, zones p^3 with 8 cells per zone, patches 3*(2p)^2*(2p+1), with the order-0 special case 8/1/1/6.",
  "all orders p >= 0 and element counts",
  "unbounded order",
  [A("swage/swage.cpp", "mesh_t::init_element")])
p("C46", "hexahedron volume",
  "get_vol_hex returns the exact volume of every trilinear hexahedron (integral of the Jacobian determinant), is invariant under translation, and equals the edge-triple-product for parallelepipeds.",
  "all vertex coordinates",
  "polynomial identity over R^24",
  [A("geometry/geometry.cpp", "get_vol_hex")])
p("C47", "cell centre computed with the hexahedron volume",
  "After get_vol_hex, reading mesh.cell_coords(c, d) gives the average of coordinate d over the cell's own 8 nodes, whatever cells were processed before and whatever the arrays contained.",
  "all meshes, all processing histories",
  "stale data from the previous cell is invisible on a single-cell test",
  [A("geometry/geometry.cpp", "get_vol_hex"), A("swage/swage.cpp", "mesh_t::cell_coords")])
p("C48", "Gauss-point Jacobian of affine elements",
  "get_gauss_pt_jacobian fills J(i,j) = sum_v d(basis_v)/d(xi_j) * x_i(v), its determinant and inverse; with a basis reproducing linear functions, an affine element's Jacobian is the constant linear part of the map.",
  "all elements and Gauss points",
  "real-valued geometry",
  [A("geometry/geometry.cpp", "get_gauss_pt_jacobian")])
p("C49", "volumes are additive over corners",
  "get_vol_jacobi sets each cell volume to the weighted sum over its corners and each element volume to the sum over its cells, so the element volume equals the Gauss-Lobatto quadrature of det J.",
  "all meshes",
  "sum identity for all sizes",
  [A("geometry/geometry.cpp", "get_vol_jacobi")])
p("C50", "matrix product and matrix-vector wrappers",
  "matar_blas_lapack matvec/matmul compute A x and A B for all conforming shapes and access the packed copies only in bounds.",
  "all shapes and entries",
  "layout errors appear only for rectangular shapes",
  [A("common/matar_blas_lapack_interface.cpp", "matvec", "matmul", "transpose", "invert")])
p("C51", "VTK vertex maps are inverse permutations",
  "make_vtk_vert_map(order,map,false) and (order,map,true) fill mutually inverse permutations of the element vertices, so writing a mesh with init_vtk_grid and reading it with init_swage_mesh restores node coordinates and connectivity.",
  "all orders, all meshes",
  "unbounded order; relies on the enumeration of all (I,J,K)",
  [A("io/vtk_io.cpp", "swage2vtk::make_vtk_vert_map", "swage2vtk::init_vtk_grid", "swage2vtk::init_swage_mesh")])
p("C52", "box mesh connectivity",
  "The box mesh generator numbers points and cells bijectively, lists for each cell its 8 lattice points in finite-element order, numbers each face exactly once, and records for each face the cells on its two sides.",
  "all box dimensions",
  "unbounded dimensions; boundary faces are the special cases",
  [A("mesh_tools/box_mesh_creator/meshbox.cpp", "main", "get_id")])
p("C53", "mesh file vertex order round-trips",
  "A cell written by the Ensight writer and read back by read_mesh has the same local vertex order (orientation preserved).",
  "all cells",
  "orientation reversal is not visible in a smoke test",
  [A("examples/average/test/average.cpp", "read_mesh", "ensight"), A("mesh_tools/box_mesh_creator/meshbox.cpp", "Ensight")])
p("C54", "smoothing obeys a maximum principle",
  "smooth_cells and smooth_element replace nodal values by averages: constants are preserved and new values stay within the range of the old values, for any number of cycles.",
  "all meshes, fields and cycle counts",
  "claims about every history of smoothing cycles",
  [A("examples/average/test/average.cpp", "smooth_cells", "smooth_element")])
p("C55", "region fills",
  "initialize_state assigns a fill's value exactly to the cells whose centre lies in the fill's region, later fills overriding earlier ones.",
  "all meshes and fill lists",
  "switch fall-through depends on unrelated (uninitialised) fields",
  [A("examples/average/test/average.cpp", "initialize_state")])
p("C56", "sub-cell weights partition quadrature weights",
  "sub_weights / length_weights split the 1-D quadrature weights without loss: the sub-cell weights sum to the total reference length.",
  "all tabulated orders",
  "exact identity including irrational literals",
  [A("elements/elements.cpp", "elements::sub_weights", "elements::length_weights")])
p("C57", "Chebyshev point distribution",
  "chebyshev_points(N,Zl,Zr,Z) with Zl < Zr fills points that lie strictly between Zl and Zr, are strictly increasing and symmetric about the midpoint, and are, mapped to [-1,1], zeros of the Chebyshev polynomial T_N.",
  "all N, all end points",
  "claims over all N and real end points",
  [A("elements/point_distributions.cpp", "chebyshev_points")])
p("C58", "Chebyshev nodes of the arbitrary-order elements",
  "elements::chebyshev_nodes_1D fills order+1 nodes that run strictly increasing from exactly -1 to exactly 1 and are symmetric about 0, for every order >= 1.",
  "all orders",
  "unbounded order, trigonometric values",
  [A("elements/elements.cpp", "elements::chebyshev_nodes_1D")])
p("C59", "LU pivoting bounds the multipliers",
  "LU_decompos uses (scaled) partial pivoting: for a non-singular input no stored multiplier (strict lower triangle) exceeds 1 in magnitude.",
  "all sizes, all non-singular matrices",
  "growth of the factors depends on every pivot choice made during the factorisation",
  [A("slam/slam.cpp", "LU_decompos")])
p("C60", "HexN vertex and node tables",
  "After setup_HexN(order) there are 2*order+1 nodes and order+1 vertices per direction (2 and 2 for order 0); vert_node_map sends the vertex with lattice coordinates (a,b,c) to the node with lattice coordinates 2(a,b,c) (order 0: (a,b,c)), always a valid node id, and node_coords of that node are the 1-D vertex positions used by the basis.",
  "all orders, all 1-D node tables",
  "an index identity for an unbounded family of lattices filled through a running counter",
  [A("elements/elements.cpp", "HexN::setup_HexN", "HexN::create_lobatto_nodes", "HexN::vert_node_map")])
p("C61", "QuadN physical position and corners",
  "QuadN::physical_position with the basis of QuadN::basis_partials returns the interpolated position whatever the output array held before (affine vertex arrangements are mapped exactly), and QuadN::corners returns the four lattice corner vertices.",
  "all orders, vertex positions, points and previous output contents",
  "the result depends on the history of the output array",
  [A("elements/elements.cpp", "QuadN::physical_position", "QuadN::corners")])
p("C62", "surface and interior nodes of the reference element",
  "After ref_element::init the list of interior nodes contains exactly the nodes that are not on the boundary of the reference lattice and the list of surface nodes exactly the others, each once and in increasing order; the two lists partition the nodes.",
  "all orders, any previous contents of memory",
  "a counting claim about an unbounded family of lattices, decided through a neighbour test in the loop",
  [A("elements/elements.cpp", "ref_element::init", "ref_element::ref_surface_nodes_in_elem", "ref_element::ref_inside_nodes_in_elem")])
p("C63", "patch and cell quadrature points of the reference element",
  "The quadrature point of a cell patch lies in the plane of the patch (Gauss-Lobatto coordinate) at the Gauss-Legendre coordinates of its cell, with the product of the two tangential Legendre weights; the point of a cell has the three Legendre coordinates and the product weight and, for the tabulated orders, lies strictly inside its cell. Both cells at a patch see the same point and weight.",
  "all orders, cells and sides",
  "the position of a patch is written by one of the two adjacent cells and must suit the other",
  [A("elements/elements.cpp", "ref_element::init")])
p("C64", "corner surfaces of the reference element",
  "Each of the three outer surfaces of a corner has the unit normal of its direction pointing away from the centre of its cell, and a weight that is the product of the two tangential corner weights; over the eight corners of a cell the weighted normals of every direction cancel (the cell surface is closed).",
  "all orders, corners and cells",
  "closure is a sum over every cell of an unbounded lattice",
  [A("elements/elements.cpp", "ref_element::init", "ref_element::ref_corner_surface_normals", "ref_element::ref_corner_g_surface_weights")])
p("C65", "tabulated basis and gradients of the reference element",
  "The tables of basis values and gradients at the nodes, patch points and cell points hold the values and partial derivatives of the Lagrange basis of the vertices: values sum to one, gradients to zero, both reproduce linear fields, and at the vertex nodes the values are one or zero.",
  "all tabulated orders (up to 9), all points and vertices, any previous contents of memory",
  "thousands of table entries per order, real-valued identities",
  [A("elements/elements.cpp", "ref_element::init", "ref_element::ref_nodal_basis", "ref_element::ref_nodal_gradient", "ref_element::ref_patch_gradient", "ref_element::ref_cell_gradient")])
p("C66", "matrix transposition and inversion wrappers",
  "transpose fills the transposed matrix for every shape; invert fills the two-sided inverse of every nonsingular matrix (given a LAPACK meeting its contract), and a singular matrix is not reported as inverted.",
  "all shapes, orders and entries, any contents of uninitialised memory",
  "layouts differ only for some shapes; singular inputs are rare in tests",
  [A("common/matar_blas_lapack_interface.cpp", "transpose", "invert")])
p("C67", "Gauss-Jacobi rules integrate every polynomial up to degree 2n-1",
  "compute_gauss_jacobi_quadrature_rule(n, alpha, beta) returns n points and weights that integrate every polynomial of degree at most 2n-1 exactly against (1-x)^alpha (1+x)^beta on [-1,1].",
  "all n >= 1, all alpha, beta > -1, all polynomials of degree up to 2n-1",
  "unbounded number of points, real parameters, all polynomials",
  [A("elements/gauss_jacobi_quadrature.cpp", "compute_gauss_jacobi_quadrature_rule"), A("elements/jacobi_polynomials.h", "jacobi::a", "jacobi::b", "jacobi::c"), A("common/matar_blas_lapack_interface.cpp", "eig_sym_tri")])
p("C68", "corner normals of the reference cell",
  "set_unit_normals fills an 8 by 3 array with the outward direction of every corner of the reference cell (component d is +1 if corner c lies on the upper side in direction d and -1 otherwise); the eight directions add up to zero.",
  "all previous contents of the array, all corners and directions",
  "every entry must be written, whatever the array held before",
  [A("elements/elements.cpp", "elements::set_unit_normals")])
p("C69", "high-order refinement",
  "For element orders 1 to 9, refine_high_order_mesh completes without out-of-bounds access; Gauss point (i,j,k) of an element is the image of the Lobatto point under the degree-p interpolant of the element's equally spaced vertices (exact for polynomial maps; corner points are corner vertices); sub-cell ids partition [0, num_cells) and gauss_in_cell, elems_in_cell, nodes_in_cell list the lattice neighbours; two Gauss points get the same node iff they coincide, so elements sharing a face or an edge, in any relative orientation, share its nodes.",
  "all meshes, orders, vertex coordinates and face orientations",
  "real-valued geometry over all meshes; depends on the whole history of hash touches",
  [A("swage/refine_high_order_mesh.cpp", "swage::refine_high_order_mesh"), A("elements/lagrange_element.cpp", "LagrangeElement::eval_approx"), A("elements/point_distributions.cpp", "equispaced_points")])
p("C70", "Jacobian determinants at the Gauss points",
  "After swage::evaluate_jacobian_determinants the entry of gauss_pt_det_j of each Gauss point of each element is the determinant of the Jacobian, at that point, of the element's degree-p map; no array is accessed out of bounds and no other entry changes.",
  "all meshes, element orders 1 to 9, node positions and previous array contents",
  "an analytic derivative at every point of every element, and an array indexed by ids that depend on the whole mesh",
  [A("swage/evaluate_jacobian_determinants.cpp", "swage::evaluate_jacobian_determinants"), A("elements/lagrange_element.cpp", "LagrangeElement::eval_det_jac")])
p("C71", "the annulus example and its determinants",
  "For every element order p >= 1, create_annular_mesh builds two conforming elements of the half annulus without out-of-bounds access (vertices at their places, two vertices are one node iff they are at one place, every node used); compute_jacobian_determinants returns, for any valid mesh, the Jacobian determinant of the interpolated element map at each vertex; on the annulus these are positive, equal in both elements and at all heights, and within relative error (pi/(2p))^p/(p+1) of the exact value r*pi/4.",
  "all orders, vertices and (for compute_jacobian_determinants) meshes",
  "every order, real-valued trigonometric geometry, analytic error bound",
  [A("examples/vtk/plotting_jacobian_determinants.cpp", "create_annular_mesh", "compute_jacobian_determinants")])
p("C72", "accuracy of interpolation of smooth functions",
  "For an N times continuously differentiable function f sampled at the N vertices, lagrange::eval_interp at X is off by f^(N)(c)/N! * prod (X - Z_j) for some c in the interval (so by at most M/N! * prod |X - Z_j|, plus at most a Lipschitz constant times the tolerance where X is taken for a vertex); the first derivative from eval_der_interp at a vertex is off by f^(N)(c)/N! * prod_{j != i} (Z_i - Z_j); LagrangeElement::eval_approx of samples of a function of three variables satisfies the corresponding tensor bound.",
  "all smooth functions, vertex sets and points",
  "quantifies over all functions; an existential mean-value statement",
  [A("elements/lagrange_polynomials.cpp", "lagrange::eval_interp", "lagrange::eval_der_interp"), A("elements/lagrange_element.cpp", "LagrangeElement::eval_approx")])
p("C73", "volumes of curved elements",
  "Every element of order at most 9 is the image of the reference cube under a polynomial map of degree at most p in each variable. For orders 1 to 9, get_gauss_pt_jacobian followed by get_vol_jacobi gives the integral of the Jacobian determinant of that map, up to the accuracy of the tabulated weights; if the map is injective and nowhere inverted this is the Lebesgue measure of the curved element. For order 0 (trilinear elements) it is not: a frustum of volume 26/3 gets the volume 10.",
  "all meshes of orders 0 to 9, all node positions, all polynomial element maps",
  "real-valued positions; the claim is about an integral over every curved element",
  [A("geometry/geometry.cpp", "get_gauss_pt_jacobian", "get_vol_jacobi"), A("elements/elements.cpp", "ref_element::init")])
p("C74", "the geometry checks of the Average example",
  "For every element of order 0 to 9 whose Jacobian is invertible at the patch points, the three sums of area-weighted side normals that the Average example prints after get_gauss_patch_pt_jacobian are exactly zero if the element is an affine image of the reference cube, and zero up to the accuracy of the tabulated points if it is curved. For orders 1 to 9 the element volume it computes from get_gauss_cell_pt_jacobian and the cell weights is the integral of the Jacobian determinant of the element map, up to the accuracy of the weights. All accesses are in bounds.",
  "all meshes of orders 0 to 9 and all node positions",
  "real-valued positions; the example prints the sums for one mesh only",
  [A("examples/average/test/average.cpp", "main"), A("geometry/geometry.cpp", "get_gauss_patch_pt_jacobian", "get_gauss_cell_pt_jacobian"), A("elements/elements.cpp", "ref_element::cell_side_unit_normals")])
p("C75", "the run of the Average example and its graphics dumps",
  "For all settings, the run of the Average example makes one smoothing cycle per time step of 0.001 until TFINAL or cycle_stop, and writes a graphics dump of the initial state, every graphics_cyc_ival cycles and every graphics_dt_ival of time before TFINAL, and of the final state. The dumps are numbered consecutively, each shows the cell field at that cycle, the number and the alternating colour of the element of each cell, and the node positions, and the case file lists the times of all dumps so far.",
  "all valid meshes, initial fields and settings, any number of cycles",
  "the number of cycles and dumps is unbounded; the example is run with one set of settings",
  [A("examples/average/test/average.cpp", "main", "ensight"), A("examples/average/src/input.cpp", "input")])
p("C76", "the polyhedra written by vtk_writer",
  "For any number of cells and any node numbering, a reader of the .vtu file written by vtk_writer of the Average example gets, for every cell, a polyhedron whose points are the eight nodes of the cell in order and whose faces are the six sides of the cell, each a closed quadrilateral along the edges of the cell, with exactly two faces at every edge; the offset arrays delimit exactly the data of each cell.",
  "all numbers of cells and all cell-node tables",
  "unbounded mesh sizes; the function is not called by any test",
  [A("examples/average/test/average.cpp", "vtk_writer"), A("swage/swage.cpp", "mesh_t::node_in_patch_in_cell")])
p("C77", "the setup of the Average example",
  "For every conforming hexahedral mesh read from the file, every element order the mesh can be refined to, every list of boundary conditions and whatever the allocated memory contains, the setup of the Average example (connectivity of the initial mesh, refine_mesh, connectivity of the refined mesh, generate_bcs) accesses no array out of bounds and gives a mesh with different nodes at different places, every cell in its element and every node in some cell; boundary set b consists of exactly the nodes of the boundary faces that meet condition b, and for a plane bounding the domain these are exactly the nodes on the plane.",
  "all meshes, orders 0 to 5, boundary conditions and contents of uninitialised memory",
  "the hash tables, id tables and list sizes depend on the whole mesh; composition of eight routines",
  [A("examples/average/test/average.cpp", "read_mesh", "generate_bcs"), A("swage/swage.cpp", "refine_mesh", "mesh_t::build_connectivity", "mesh_t::init_bdy_sets", "mesh_t::tag_bdys")])
p("C78", "the whole Average example",
  "For every mesh file covering a domain between the planes x = 0 and x = 2, the Average example with the settings of input runs to its end without undefined behaviour, whatever uninitialised memory contains, writes 51 dumps at times 0, 0.01, ..., 0.5, and ends with the nodal field 10 on x = 0 and 0 on x = 2 and with all nodal and cell values, in all dumps, between 0 and 10.",
  "all mesh files, all contents of uninitialised memory, 500 cycles",
  "composition of reading, refinement, connectivity, fills and 500 smoothing cycles on meshes of every size",
  [A("examples/average/test/average.cpp", "main", "read_mesh", "generate_bcs", "allocate_state", "initialize_state", "apply_boundary"), A("examples/average/src/input.cpp", "input")])
p("C79", "from the box mesh generator to the results of the Average example",
  "For every box of at least two cells and fewer than 10^9 points whose spacing is at least a thousandth of the largest coordinate in each direction and at most 6.9 in some direction, the file written by the box mesh generator (coordinates rounded to six digits) is read by the Average example, which runs with the settings of input to its end without undefined behaviour, whatever uninitialised memory contains; the refined mesh has 216 cells per box cell and different nodes at different places; 51 dumps are written; all values lie in [0, 10]; the nodal field is 10 on the face x = 0 and 0 on the face x = 2 of a box with these faces.",
  "all boxes (numbers of cells, lengths, shifts), all decimal roundings to a nearest number, all contents of uninitialised memory",
  "composition of generator, text format, reader, refinement, hash tables and 500 cycles for meshes of every size",
  [A("mesh_tools/box_mesh_creator/meshbox.cpp", "main", "Ensight"), A("examples/average/test/average.cpp", "main", "read_mesh"), A("swage/swage.cpp", "refine_mesh")])
p("C80", "file names and the trip of a mesh through a VTK file",
  "write_grid and read_grid use the XML format exactly for names ending in .vtu and the legacy format exactly for names ending in .vtk, upper or lower case; any other name writes nothing and reads a null grid without an error. write_grid changes no other file. A mesh written with init_vtk_grid and write_grid and read with read_grid and init_swage_mesh under the same name keeps order, counts, connectivity and, to the precision of VTK's point array, the coordinates of all nodes in elements.",
  "all file names, file systems, grids, meshes and orders",
  "unbounded strings and meshes; the tests never read or write a grid file",
  [A("io/vtk_io.cpp", "swage2vtk::read_grid", "swage2vtk::write_grid", "swage2vtk::init_vtk_grid", "swage2vtk::init_swage_mesh")])
p("C81", "the VTK example program from mesh to file",
  "For every element order p >= 1 the example plotting_jacobian_determinants runs without undefined behaviour and writes to output.vtk (and to no other file) a grid with 2(p+1)^3-(p+1)^2 points and two Lagrange hexahedra: the point VTK expects at lattice position (i,j,k) of a cell is at the place of the vertex on the half annulus, and its data is the Jacobian determinant of the element map at this vertex, the same from both elements on the shared face, positive and within relative error (pi/(2p))^p/(p+1) of r*pi/4.",
  "all orders, all contents of uninitialised memory and all file systems",
  "every order (the program is shipped with order 2); the last writer of a shared node must not matter",
  [A("examples/vtk/plotting_jacobian_determinants.cpp", "main", "create_annular_mesh", "compute_jacobian_determinants"), A("io/vtk_io.cpp", "swage2vtk::init_vtk_grid", "swage2vtk::write_grid")])
p("C82", "element_selector gives the element asked for",
  "choose_3Delem_type and choose_2Delem_type set the pointer, whatever it was, to an element of the requested type: dimension and number of nodes as documented for the type, with nodal shape functions.",
  "all element types and all histories of calls",
  "every previous pointer value and sequence of choices; no test calls the selector",
  [A("elements/elements.cpp", "element_selector::choose_3Delem_type", "element_selector::choose_2Delem_type"), A("elements/elements.h", "elem_types::elem_type")])
p("C83", "complex-step derivatives of Lagrange interpolants",
  "The Complex instantiations of the Lagrange evaluators, provided for differentiation by the complex step, agree with the Real ones on real input; evaluated at x + ih in one coordinate they return, in the real part, the value and, in the imaginary part divided by h, the derivative returned by the Real evaluators, both up to a constant times h^2: eval_interp, eval_der_interp (giving the second derivative), and eval_basis and eval_approx of LagrangeElement.",
  "all vertex sets separated by the tolerance, all real points, coefficients, orders, coordinates and steps 0 < |h| <= 1",
  "all points, including the vertices, and all steps; the tests use one step and random points",
  [A("elements/lagrange_polynomials.cpp", "find_coincident_vertex", "eval_interp", "eval_der_interp"), A("elements/lagrange_element.cpp", "LagrangeElement<Complex>"), A("common/common.h", "abs", "almost_equal")])
p("C84", "complex-step derivatives of Legendre and Jacobi polynomials",
  "The Complex instantiations of the Legendre and Jacobi evaluators agree with the Real ones on real input, and the complex step through them returns the value and the derivative of the Real evaluators up to a constant times h^2: legendre::eval, legendre::eval_der of any order (giving the next derivative), jacobi::eval for all parameters, and eval_basis and eval_approx of LegendreElement in each coordinate.",
  "all degrees, derivative orders, parameters, points, coefficients and steps 0 < |h| <= 1",
  "every degree and derivative order; the tests use one step",
  [A("elements/legendre_polynomials.cpp", "legendre::eval", "legendre::eval_der"), A("elements/jacobi_polynomials.cpp", "jacobi::eval", "jacobi::eval_der"), A("elements/legendre_element.cpp", "LegendreElement<Complex>")])
p("C85", "eigensolver wrapper",
  "For every symmetric tridiagonal matrix, given by const arrays diag and subdiag, matar2lapack::eig_sym_tri returns the eigenvalues in ascending order and, row by row in the same order, orthonormal eigenvectors, and leaves its two inputs unchanged.",
  "all sizes and all entries, all contents of freshly allocated memory",
  "all matrices; no test calls the routine",
  [A("common/matar_blas_lapack_interface.cpp", "matar2lapack::eig_sym_tri")])
p("C86", "long runs of the Average example converge",
  "If every node of the mesh is connected through a chain of cells to a node held by the boundary condition, then the cycle loop of the Average example has exactly one nodal field it does not change, this field lies in [0, 10], and from every starting state the nodal and cell values approach it geometrically, with a rate that does not depend on the starting state. If some part of the mesh is not connected to a held node, the result there depends on the starting state.",
  "all valid meshes, all starting states, all numbers of cycles, all tolerances",
  "a statement on the limit of infinitely many cycles, for meshes of every size and shape",
  [A("examples/average/test/average.cpp", "main", "smooth_element", "apply_boundary")])
p("C87", "what the Average example converges to",
  "On a mesh whose rows of cells run from the plane x = 0 to the plane x = 2 (in particular on every such box of the mesh generator, with ci cells in x), the nodes of the refined mesh lie on 6 ci + 1 planes, and the field the cycle loop converges to is 10 on the first plane, 0 on the last and linear in the number of the plane in between; it is not linear in x. The result of the program with the settings of input lies between zero and this field.",
  "all boxes and rectilinear grids, all starting states, all contents of uninitialised memory",
  "exact limit of an infinite iteration for meshes of every size, through generator, file, reader and refinement",
  [A("examples/average/test/average.cpp", "main", "smooth_element", "apply_boundary"), A("swage/swage.cpp", "refine_mesh"), A("mesh_tools/box_mesh_creator/meshbox.cpp", "main")])
p("C88", "rounding errors of the Average example",
  "Run with rounded arithmetic (every operation rounded by a monotone rounding of relative error u that keeps numbers of a few bits, for instance IEEE double precision without overflow and underflow), the cycle loop of the Average example still keeps all values between 0 and 10 on boxes, and after k cycles its fields differ from the exact ones by at most M ((1+u)^((K+10)k) - 1), where M bounds the initial values and K the number of cells of a node; for the 500 cycles of the shipped settings in double precision this is below 1e-11.",
  "all roundings with the stated properties, all meshes and initial fields, any number of cycles",
  "a test sees one rounding mode, one mesh and one number of cycles",
  [A("examples/average/test/average.cpp", "main", "smooth_element", "apply_boundary")])
p("C89", "rounding errors of the LU solver",
  "With every operation rounded (relative error u), LU_decompos, whatever the matrix, stores non-zero pivots and factors whose product differs from the row-permuted input by at most ((1-u)^-n - 1)|L||U| per entry; LU_backsub returns the exact solution, LU_invert the exact columns, for a matrix within ((1-u)^-3n - 1)|L||U| of the input, and LU_determ the determinant of such a matrix up to relative error (1+u)^n - 1. The solver is backward stable with respect to the input itself, as implicit pivoting promises.",
  "all matrices, right-hand sides and sizes, all roundings of relative error u < 1",
  "a test sees a few matrices and one rounding; an unstable pivot rule gives good answers on most of them",
  [A("slam/slam.cpp", "LU_decompos", "LU_backsub", "LU_invert", "LU_determ")])
p("C90", "hash keys do not overflow",
  "refine_mesh, refine_high_order_mesh and build_patch_connectivity number the nodes and sides through int keys; on every valid mesh whose counts of Gauss points and sides fit an int, all conversions to int, products and sums on the way to the keys and the table size fit too, so the result is the one of exact integers.",
  "all meshes, orders up to 9, cell sizes and extents",
  "overflow depends on the ratio of mesh extent to cell size (also to the absolute size), not on anything a small test mesh shows; it is undefined behaviour, so a passing run proves nothing",
  [A("swage/swage.cpp", "refine_mesh", "build_patch_connectivity"), A("swage/refine_high_order_mesh.cpp", "refine_high_order_mesh")])
p("C91", "every mesh owns its quadrature-point state",
  "After init_gauss_pts, init_gauss_patch_pts and init_gauss_cell_pts, directly or through a refinement, the mesh they are called for has a Jacobian matrix, an inverse and a determinant for each of its Gauss points, patch points and cells, and the counts num_gauss_pts, num_gauss_patch_pts, num_gauss_cell_pts report their numbers; what is written through an accessor is read back through the same accessor and no other, until the same mesh is set up again; operations on one mesh do not change another.",
  "all histories of setup, refinement and access over any number of mesh objects",
  "interference shows only for particular sequences of calls on several mesh objects, and reads of unallocated or indeterminate memory may return plausible values",
  [A("swage/swage.cpp", "mesh_t::init_gauss_pts", "mesh_t::init_gauss_patch_pts", "mesh_t::init_gauss_cell_pts", "mesh_t::build_patch_connectivity", "mesh_t::gauss_in_elem", "mesh_t::num_gauss_cell_pts", "mesh_t::gauss_pt_jacobian"), A("swage/swage.h", "mesh_t")])
p("C92", "refined meshes in floating point",
  "Run in floating point, refine_mesh makes the mesh it makes in exact arithmetic: quadrature points that two neighbouring elements have in common are found to be the same node, points that are different stay different nodes, and positions differ from the exact ones by a few units of rounding error of the mesh coordinates.",
  "all meshes and orders, every rounding (monotone, relative error u, exact for short numbers, rounded numbers not rounded again), all contents of uninitialised memory",
  "the result depends on single rounding errors at the boundaries of hash bins; a test mesh with short coordinates rounds nothing",
  [A("swage/swage.cpp", "refine_mesh", "lobatto_nodes_1D_tmp")])

p("C93", "patch connectivity in floating-point arithmetic",
  "In double precision, as in exact arithmetic, two cell sides with the same four nodes get the same patch id, and on a rectilinear grid the patches are exactly the faces.",
  "all meshes, all coordinates, all rounding modes; for the grids all sizes below the limit of the precision",
  "the two cells of a face add its vertices in their own order, and a truncation follows: whether the last bit matters depends on the coordinates",
  [A("swage/swage.cpp", "build_patch_connectivity")])

p("C94", "Lagrange interpolation in floating-point arithmetic",
  "In floating-point arithmetic compute_barycentric_weights, lagrange::eval and LagrangeElement::eval_basis return the exact weights and basis functions up to a relative error of a few N u, and lagrange::eval_interp and LagrangeElement::eval_approx return the exact value of the interpolant of coefficients with such a relative error (backward stability), at the given point or, if it is closer to a vertex than twice the coincidence tolerance, at that vertex; at the vertices the results are exact.",
  "all orders, all vertices further apart than four tolerances, all points, all coefficients, all contents of the work array, all rounding modes",
  "a rounding error bound quantifies over all vertices, points, data and roundings; a test sees one combination",
  [A("elements/lagrange_polynomials.cpp", "find_coincident_vertex", "compute_barycentric_weights", "eval", "eval_interp"), A("elements/lagrange_element.cpp", "LagrangeElement::eval_basis", "LagrangeElement::eval_approx"), A("common/common.h", "almost_equal")])

p("C95", "first derivatives of the interpolant in floating-point arithmetic",
  "In floating-point arithmetic lagrange::eval_der_interp with n = 1 returns the derivative of the interpolating polynomial with an error that is a small multiple of the unit roundoff times the size of the data, at every point of the element; the derivative of constant data is zero up to such an error.",
  "all orders, all vertices further apart than four tolerances, all points, all data, all rounding modes",
  "divided differences amplify the last bit by the inverse distance to the nearest vertex: whether a point suffers depends on its last bits",
  [A("elements/lagrange_polynomials.cpp", "eval_der_interp", "eval_der", "find_coincident_vertex")])

p("C96", "cell volumes of get_vol_hex in floating-point arithmetic",
  "In floating-point arithmetic get_vol_hex gives every cell its volume up to a few rounding errors; the error does not depend on where the cell lies, so moving the mesh does not change the volumes and a cell of positive volume gets a positive one. cell_coords returns the mean of the nodes up to a few rounding errors.",
  "all meshes and all node coordinates, all rounding modes, all contents of uninitialised memory",
  "the expression cancels products of three coordinates: how much is lost depends on position and last bits of the coordinates, not on the shape a test would choose",
  [A("geometry/geometry.cpp", "get_vol_hex"), A("swage/swage.cpp", "mesh_t::cell_coords")])

p("C97", "Jacobian matrices, determinants and inverses in floating-point arithmetic",
  "In floating-point arithmetic the Jacobian routines give, at every point, each matrix entry up to a relative error of a few units per vertex of the sum of moduli, a determinant within an explicit bound of the exact one (so positive whenever the exact one exceeds the bound), and an inverse within an explicit bound governed by the conditioning of the determinant.",
  "all meshes, node coordinates, reference gradients and points, all rounding modes, all contents of uninitialised memory",
  "rounding errors depend on the last bits of every coordinate; no finite set of meshes covers them",
  [A("geometry/geometry.cpp", "get_gauss_pt_jacobian", "get_gauss_patch_pt_jacobian", "get_gauss_cell_pt_jacobian"), A("elements/elements.cpp", "mat_inverse")])

p("C98", "volumes of get_vol_jacobi in floating-point arithmetic",
  "In floating-point arithmetic the volume get_vol_jacobi stores for a cell is the sum of determinant times weight over its eight corners up to nine rounding errors, and for an element the sum over its n cells up to 9 + n; positive determinants give positive volumes.",
  "all meshes and orders, all determinant fields, all rounding modes, all contents of uninitialised memory",
  "rounding errors depend on the last bits of all determinants and weights",
  [A("geometry/geometry.cpp", "get_vol_jacobi")])

p("C99", "Legendre polynomials, basis functions and expansions in floating-point arithmetic",
  "In floating-point arithmetic, for points of the reference interval or cube, legendre::eval of order n is within 3n(n+1) times five rounding units of the exact value (which is at most one in modulus), eval_approx and the element's eval_basis and eval_approx are within explicit multiples of the sum of the moduli of the coefficients: the recurrence does not amplify errors beyond the square of the order.",
  "all orders, points of the reference cube, coefficients and rounding modes, any content of the work array",
  "the error of a three-term recurrence depends on the last bits of the point and on the order; sampled points say nothing about the worst one",
  [A("elements/legendre_polynomials.cpp", "eval", "eval_approx"), A("elements/legendre_element.cpp", "eval_basis", "eval_approx")])

p("C100", "derivatives of Legendre polynomials and gradients of expansions in floating-point arithmetic",
  "In floating-point arithmetic, for points of the reference interval or cube and a library gamma function of small relative error, legendre::eval_der is within an explicit small multiple of the largest value of the exact k-th derivative (its value at one), and eval_der_approx, eval_grad_basis and eval_grad_approx are within explicit small multiples of the correspondingly weighted sums of moduli of coefficients.",
  "all orders, derivative orders k >= 1, points of the reference cube, coefficients, rounding modes and gamma functions with the stated error, any content of work and output arrays",
  "the error depends on the last bits of the point, on the order and on the library's gamma function",
  [A("elements/legendre_polynomials.cpp", "eval_der", "eval_der_approx"), A("elements/jacobi_polynomials.cpp", "eval", "eval_der"), A("elements/jacobi_polynomials.h", "a", "b", "c"), A("elements/legendre_element.cpp", "eval_grad_basis", "eval_grad_approx")])

p("C101", "box meshes survive floating-point arithmetic and the file format",
  "A box mesh computed in floating-point arithmetic by the box mesh generator, written to its Ensight file with six significant digits and read back by read_mesh has every point close to its place and every cell of positive volume.",
  "all boxes (numbers of cells, lengths, shifts), all rounding modes of the arithmetic and of the decimal conversions, all contents of uninitialised memory",
  "whether two neighbouring planes print the same six digits depends on all of shift, length and number of cells; a few sample boxes say nothing about others",
  [A("mesh_tools/box_mesh_creator/meshbox.cpp", "main", "Ensight"), A("examples/average/test/average.cpp", "read_mesh")])

p("C102", "A mesh file that is cut short is not mistaken for a mesh",
  "When the file of a box mesh is cut off at any character (the writer crashed or the disk filled up), read_mesh does not return a mesh that differs from the one that was written without reporting it. This fails: cut inside the header lines the reader never returns; cut anywhere later it returns normally, with as many points as the count says, no cells when the cell count is missing, uninitialised memory for the numbers that are missing, and a number that lost its last digits taken as a smaller number; without the last two characters the mesh has one wrong node in its last cell.",
  "every mesh with fewer than 10^9 points and cells, every rounding of printed numbers to nearest, every cut point of the file, every content of uninitialised memory",
  "tests read complete files; the cut points are as many as the file has characters",
  [A("examples/average/test/average.cpp","read_mesh"), A("mesh_tools/box_mesh_creator/meshbox.cpp","Ensight")])

p("C103", "the recursive polynomial evaluators: orders, stack and cost",
  "legendre::eval(n, X) and jacobi::eval(n, alpha, beta, X) return for every order from -1 on and only for those (an order below -1 recurses until the stack or the range of int is exhausted); the recursion is n+1 frames deep, and the number of calls is 2 F(n+2) - 1 with the Fibonacci numbers F, so it grows exponentially with the order. eval_der recurses from order n-k, and an expansion with N coefficients (eval_approx) returns for every N up to the stack size and 2^31 and makes 2 F(N+3) - N - 4 calls.",
  "every int order, every number of stack frames, every point, all parameters, every number of coefficients",
  "a test runs a few small orders; it cannot show that no order below -1 returns, nor the cost at orders it cannot afford to run",
  [A("elements/legendre_polynomials.cpp","legendre::eval","legendre::eval_approx"), A("elements/jacobi_polynomials.cpp","jacobi::eval","jacobi::eval_der")])

p("C104", "shape functions and positions of the fixed-order elements in floating-point arithmetic",
  "With a rounding after every operation, at every point of the reference element: each shape function and each partial computed by Quad4, Quad8, Quad12, Hex8, Hex20, Hex32 and Tess16 is within a small multiple of u of its exact value, and the shape functions sum to one up to rounding; physical_position (all classes but Hex32, see C27) is within rounding of the exact isoparametric map. For the linear classes the shape functions have small relative error at every representable point, are never negative in the element, vanish exactly on the opposite faces, and the position error is a small multiple of u times the largest vertex coordinate. For all classes without thirds in their vertex table the shape functions are exactly 0 and 1 at the vertices, and physical_position maps a vertex exactly to the vertex.",
  "every rounding with relative error u, every element class, every (representable) point of the reference element, all vertices, all contents of uninitialised arrays",
  "tests evaluate at a few points with a tolerance; the bounds must hold at every point, for every rounding and for every element",
  [A("elements/elements.cpp","Quad4::basis","Hex8::basis","Hex8::physical_position","Hex20::basis","Hex32::basis","Tess16::basis")])

p("C105", "graphics dumps of a process that dies",
  "Let the Average example or the box mesh generator write its graphics files into a directory without a case file of an earlier run. At whatever moment the process dies, a case file that a viewer accepts lists only time steps whose files, found by the name patterns of the case file, are all there and whole, with the data and the times of these dumps; the data files of finished dumps stay unchanged, and no file outside ensight/ changes. A run that is not disturbed ends with a case file that lists all dumps. (Not guaranteed, and refuted: an accepted case file exists at every moment after the first dump; the same with the case file of an earlier run still there.)",
  "all numbers of dumps, meshes, fields, disk contents and all points at which the process may die, with any part of the buffered output lost",
  "a crash can happen between any two characters of any file; tests never interrupt the writers",
  [A("examples/average/test/average.cpp","ensight"),A("mesh_tools/box_mesh_creator/meshbox.cpp","Ensight")])

p("C106", "the .vtu file as text",
  "For every mesh, a viewer accepts the .vtu file written by vtk_writer of the Average example and reads from its text: the numbers of points and cells, every coordinate of every node within half a unit of the sixth decimal (exactly if it has at most six decimals), for every cell a polyhedron with its eight nodes in order and the six sides of the cell, and the number of the cell as cell data for cells up to 2^24. A file that is cut anywhere is not accepted, and a process that dies at any moment leaves all other files as they were and in place of the file the one from before, the whole new one, or one that is not accepted. (Not guaranteed, and refuted: different nodes stay different; the cell data tell more than 2^24 + 2 cells apart; an earlier file of the same number survives.)",
  "all meshes, node numberings, coordinates, dump numbers, disk contents and all points at which the process may die",
  "tests look at one picture; the text depends on every digit of every number, and a cut can fall anywhere",
  [A("examples/average/test/average.cpp","vtk_writer")])

p("C107", "HexN and QuadN in rounded arithmetic",
  "In floating point arithmetic, for elements of every order and every distribution of the vertices: the values of HexN::basis and of the basis of QuadN::basis_partials have a small relative error at every point, and are exactly 0 and 1 at the vertices; the partial derivatives have an error that is small compared with the terms of the product rule, and for the derivative of a 1-D function at another vertex a small relative error; the basis adds up to one and the partials add up to zero up to small multiples of the Lebesgue functions; QuadN::physical_position, started from a cleared array, returns the interpolated position up to a small multiple of the terms added, and the exact position at the vertices. (Not guaranteed, and refuted: the values add up to one exactly; derivatives have a small relative error everywhere.)",
  "all orders, vertex positions, evaluation points, previous array contents and all roundings with relative error u, among them IEEE double precision",
  "tests compare a few values with a tolerance; the error bounds hold for all points and orders, and exactness at the vertices has to hold for every set of vertex positions",
  [A("elements/elements.cpp","HexN::basis","HexN::partial_xi_basis","HexN::partial_eta_basis","HexN::partial_mu_basis","HexN::lagrange_basis_1D","HexN::lagrange_derivative_1D","QuadN::lagrange_1D","QuadN::basis_partials","QuadN::physical_position")])

p("C108", "The Average example in real double precision: no overflow, harmless underflow",
"The smoothing run of the Average example in IEEE 754 double precision, with its limited exponent range, never overflows when the initial values are of moderate size; every field value stays between the bounds 0 and 10 on a box mesh and within 1e-11 of the exact result after the 500 cycles, however many values underflow far from the hot boundary.",
"all meshes, all initial fields, any number of cycles; all boxes of the mesh generator for the whole program",
"the property ranges over all meshes and fields and over values at the very end of the exponent range, which tests do not reach",
[A("examples/average/test/average.cpp", "smooth_element", "apply_boundary", "main")])

p("C109", "Hexahedral volumes in real double precision: when they neither overflow nor vanish",
"The volume calculation for hexahedral cells in IEEE 754 double precision, with its limited exponent range: if the coordinates of the nodes of a cell are at most L <= 2^338 in modulus, its stored volume is finite and differs from the volume of the trilinear hexahedron by at most L^3/2^45 + (1+L)^2/2^1067, so that a cell of larger volume gets a positive one, whatever the uninitialised scratch arrays contain. The restriction is needed: a cube of volume 2^1023 overflows, and a needle of volume 2^-900 gets the volume zero.",
"all meshes, all cells, all coordinates up to 2^338, all contents of uninitialised memory",
"coordinates range over all doubles up to 10^101; the failure cases are at magnitudes tests never use",
[A("geometry/geometry.cpp", "get_vol_hex"), A("swage/swage.cpp", "cell_coords")])

p("C110", "Shape functions, partials and physical positions in real double precision",
"In IEEE 754 double precision, with its limited exponent range: at every point of the reference element every shape function and every partial derivative of every element class is finite and within 2^-48 times a small constant of the class of the exact value. If the vertex coordinates are at most 2^1015 in modulus, the computed physical position is finite and within 2^-47 times that constant times the sum of the moduli of the vertex coordinates, plus 2^-1060, of the exact isoparametric map. For the classes with representable reference vertices the shape functions are exactly 1 and 0 there and the position is exactly the vertex, whatever the size of the coordinates. The bound on the coordinates is needed: a 20-node hexahedron whose vertices are all at 2^1023 has its centre computed as an infinity or NaN.",
"all element classes, all points of the reference element, all shape functions, all vertex coordinates up to 2^1015, all contents of uninitialised memory",
"the points and coordinates range over all doubles, including denormals; overflow in a partial sum needs magnitudes tests never use",
[A("elements/elements.cpp", "Quad4::basis", "Quad8::basis", "Quad12::basis", "Hex8::basis", "Hex20::basis", "Hex32::basis", "Tess16::basis", "physical_position", "partial_xi_basis", "partial_eta_basis", "partial_mu_basis", "partial_tau_basis")])

p("C111", "Complex-step derivatives of Legendre polynomials in floating-point arithmetic",
"Differentiating through the Complex instantiations of the Legendre routines in rounded arithmetic, for every order and every step h: at a point of [-1, 1] the imaginary part of eval, eval_approx or LegendreElement::eval_basis divided by h differs from the exact derivative by the truncation error of order h^2 plus rounding errors that do not grow as h tends to zero. In double precision, up to order 1000 and for every non-zero step up to 2^-60, the error is at most n^2 (n+1)^2 / 2^47 for a polynomial of order n, N^2 (N-1)^2 / 2^47 times the sum of the moduli of the coefficients for an expansion, and N^2 (N-1)^2 / 2^46 for a basis function of a hexahedron.",
"all orders, all points of the reference interval or cube, all steps, all coefficients, all directions, all rounding modes",
"the derivative tests compare one random point with one step; that no step is too small for the accuracy is a statement about all steps",
[A("elements/legendre_polynomials.cpp", "eval", "eval_approx"), A("elements/legendre_element.cpp", "eval_basis"), A("common/common.h", "Complex", "imag")])

p("C112", "The total volume of a mesh is fixed by its boundary patches",
"On a mesh whose cells are numbered consistently, the volumes that get_vol_hex gives to the cells add up to a third of the flux of the position out of the boundary patches, computed from bdy_patches, node_in_patch and sides_in_patch alone; so moving nodes that are on no boundary patch, to any place whatsoever (cells may become inverted), does not change the sum. On meshes made of the cells of a rectilinear grid, and on their refinements of any order up to 5, the sum is the volume of the original grid cells wherever the inner nodes have been moved",
"all connectivities numbered consistently (all grid meshes and all their refinements among them), all node positions, all numbers of cells",
"volumes of a few smooth meshes are compared with known values; that no volume is lost or counted twice at inner sides is a statement about all connectivities and all positions of the nodes",
[A("geometry/geometry.cpp", "get_vol_hex"), A("swage/swage.cpp", "build_patch_connectivity", "build_bdy_patches", "refine_mesh"), A("swage/swage.h", "node_rlid_in_patch_in_cell_", "cell_side_unit_normals_")])

p("C113", "Several threads evaluate elements",
"The evaluation methods of LagrangeElement and LegendreElement (eval_basis, eval_grad_basis, eval_approx, eval_grad_approx) may be called by any number of threads at the same time: whatever the order in which their accesses to the working storage of the elements follow each other, every call returns the basis function, gradient or expansion asked for, no thread waits for another and no two threads are ever about to access the same entry. In one thread the calls may be made in any order and any number of times: the result of a call does not depend on earlier ones",
"all programs of any number of threads, each making any finite sequence of calls on one element of either class and of any order; all interleavings of their accesses; all coefficients and points the single calls are correct for; all initial contents of the working storage",
"a race shows only in rare interleavings, and the interleavings of even two calls cannot be enumerated; tests call the methods in one thread in a fixed order",
[A("elements/lagrange_element.h", "ijk", "C"), A("elements/lagrange_element.cpp", "eval_basis", "eval_grad_basis", "eval_approx", "eval_grad_approx"), A("elements/legendre_element.cpp", "eval_basis", "eval_grad_basis", "eval_approx", "eval_grad_approx"), A("common/common.cpp", "base_10_to_mixed_radix")])

p("C114", "Memory of objects and of the matrix wrappers",
"In a program that constructs and destroys Lagrange and Legendre elements and the state objects of the Average example (node_t, mat_pt_t), initialises these with init_node_state and init_mat_pt_state, constructs some objects as copies of others and calls the matrix wrappers matvec, matmul, invert and eig_sym_tri and the VTK routines init_swage_mesh and init_vtk_grid, no block of memory is given back twice, and the memory in use at any time is what the existing objects need: an object that has been destroyed and a routine that has returned hold no memory",
"all finite sequences of these operations, all orders of elements and sizes of meshes and matrices",
"memory leaks and double deletions depend on the whole history of a program; unit tests end before a leak is noticed",
[A("elements/lagrange_element.cpp", "LagrangeElement", "~LagrangeElement"), A("elements/legendre_element.cpp", "LegendreElement", "~LegendreElement"), A("examples/average/include/state.h", "node_t", "mat_pt_t", "init_node_state", "init_mat_pt_state"), A("common/matar_blas_lapack_interface.cpp", "matvec", "matmul", "invert", "eig_sym_tri"), A("io/vtk_io.cpp", "init_swage_mesh", "init_vtk_grid")])

p("C115", "The volume of a curved element is fixed by its surface nodes",
"Take two elements of the same order between 1 and 9, of the same mesh or of two meshes, whose surface vertices (the vertices with a lattice index that is 0 or p) are in the same places. Their surfaces coincide point by point, their volumes (the integrals of the Jacobian determinants of their maps) are equal, wherever the interior vertices are, even if those make the map fold over; if both maps are injective and nowhere inverted the elements have the same Lebesgue measure; and the volumes computed by get_gauss_pt_jacobian followed by get_vol_jacobi differ by no more than the accuracy of the tabulated weights",
"all orders 1 to 9, all pairs of meshes and of elements, all node positions that agree on the surface vertices",
"real-valued positions of all interior nodes; a change of quadrature, of the vertex map or of one entry of the Jacobian shows only for particular curved elements",
[A("geometry/geometry.cpp", "get_gauss_pt_jacobian", "get_vol_jacobi"), A("elements/elements.cpp", "ref_element::init")])

p("C116", "The total volume of a mesh of curved elements is fixed by its outer sides",
"Take a mesh of elements of one order between 1 and 9 in which the upper side of an element in a lattice direction may be, node by node, the lower side of another element in the same direction (as in box meshes and meshes refined from them), and call the other sides outer sides. Move its nodes to any places whatsoever, except the nodes of outer sides, which stay. The total volume of the curved elements (the sum of the integrals of the Jacobian determinants of their maps) does not change, and the total of the volumes computed by get_gauss_pt_jacobian and get_vol_jacobi changes by no more than the accuracy of the tabulated weights",
"all orders 1 to 9, all meshes, all ways in which sides are glued (also periodically), all node positions and all moves of inner nodes",
"real-valued positions of all nodes of meshes of any size; conservation of the total volume is a sum of cancellations between neighbours",
[A("geometry/geometry.cpp", "get_gauss_pt_jacobian", "get_vol_jacobi"), A("elements/elements.cpp", "ref_element::init")])

p("C117", "The total volume of a mesh of curved elements turned against each other is fixed by its outer sides",
"Take a mesh of elements of one order between 1 and 9 in which sides of elements may be glued in pairs: the two sides have the same nodes under one of the eight symmetries of the square lattice (any swap and mirror images of the two lattice directions), whichever sides of the elements they are, with the elements on different sides of the common side. Call the sides that are glued to no other outer sides. Move the nodes to any places whatsoever, except the nodes of outer sides, which stay. The total volume of the curved elements does not change, and the total of the volumes computed by get_gauss_pt_jacobian and get_vol_jacobi changes by no more than the accuracy of the tabulated weights",
"all orders 1 to 9, all meshes with conforming sides (unstructured, with elements turned in any way), all node positions and all moves of inner nodes",
"real-valued positions of all nodes of meshes of any size and any topology; conservation of the total volume is a sum of cancellations between neighbours in 36 relative positions times 8 symmetries",
[A("geometry/geometry.cpp", "get_gauss_pt_jacobian", "get_vol_jacobi"), A("elements/elements.cpp", "ref_element::init")])

p("C118", "The total volume of a mesh of curved elements depends on its outer sides only",
"Take two meshes of elements of one order between 1 and 9, each with its own number of elements inside and its own way in which they are glued together side to side, turned in any way. If the sides that are glued to no other are the same in both, that is, correspond one to one with their nodes in the same places under one of the eight symmetries of the square lattice (and the elements on the same side of them), then the total volumes of the curved elements are equal, and the totals of the volumes computed by get_gauss_pt_jacobian and get_vol_jacobi differ by no more than the accuracy of the tabulated weights: remeshing the inside of a body does not change its volume",
"all orders 1 to 9, all pairs of meshes with conforming sides, all node positions that agree on the outer sides",
"two meshes of any size and topology and real-valued positions of all their nodes",
[A("geometry/geometry.cpp", "get_gauss_pt_jacobian", "get_vol_jacobi"), A("elements/elements.cpp", "ref_element::init")])

p("C119", "The total volume of a mesh of curved elements depends on its outer surface only, also across orders",
"Take two meshes of elements of order p and of order p', both between 1 and 9 and not necessarily equal, each with its own number of elements inside and its own way in which they are glued together side to side. If the sides that are glued to no other correspond one to one, and on corresponding sides the maps from the reference cube agree under one of the eight symmetries of the square (with the elements on the same side of them), then the total volumes of the curved elements are equal, and the totals of the volumes computed by get_gauss_pt_jacobian and get_vol_jacobi differ by no more than the accuracy of the tabulated weights: raising the order or remeshing the inside of a body without changing its surface does not change its volume",
"all pairs of orders 1 to 9, all pairs of meshes with conforming sides, all polynomial maps that agree on the outer sides",
"two meshes of any size, topology and order, and real-valued positions of all their nodes",
[A("geometry/geometry.cpp", "get_gauss_pt_jacobian", "get_vol_jacobi"), A("elements/elements.cpp", "ref_element::init")])

with open(os.path.join(os.path.dirname(__file__), "..", "properties.jsonl"), "w") as f:
    for q in P:
        f.write(json.dumps(q) + "\n")
print(len(P))
