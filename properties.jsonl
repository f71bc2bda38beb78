{"id": "C01", "title": "mixed-radix encode after decode is the identity", "statement": "For every number of digits Nb and all non-zero radices b whose product fits in SizeType, converting any x < b[0]*...*b[Nb-1] with base_10_to_mixed_radix and converting the digits back with mixed_radix_to_base_10 returns x, and every digit y[i] produced is < b[i]. If some radix read is 0 the call divides by zero (undefined).", "quantifier": "all digit counts, all radix vectors, all 64-bit x below the product", "why_tests_cant": "the digit count and the radices are unbounded; wrap-around of SizeType appears only for huge products", "anchors": [{"file": "common/common.cpp", "symbols": ["common::base_10_to_mixed_radix", "common::mixed_radix_to_base_10"]}]}
{"id": "C02", "title": "mixed-radix decode after encode is the identity", "statement": "For every digit vector x with x[i] < b[i] (product of radices fits in SizeType), base_10_to_mixed_radix(mixed_radix_to_base_10(x)) returns exactly x, and mixed_radix_to_base_10(x) < b[0]*...*b[Nb-1]; hence multi-index -> linear index is a bijection onto [0, prod b).", "quantifier": "all digit counts, radices and in-range digit vectors", "why_tests_cant": "an injectivity claim over an unbounded family of index spaces", "anchors": [{"file": "common/common.cpp", "symbols": ["common::mixed_radix_to_base_10", "common::base_10_to_mixed_radix"]}]}
{"id": "C03", "title": "partial-derivative orders survive encode/decode", "statement": "decode_partial_derivative(encode_partial_derivative(nx,ny,nz)) returns (nx,ny,nz) for every triple for which the encoding is defined; the encoder is undefined (shift count out of range) when any order is 0 or too large for a 32-bit int shift.", "quantifier": "all 64-bit order triples", "why_tests_cant": "2^192 inputs; the failing ones are undefined behaviour that a test on one machine masks", "anchors": [{"file": "common/common.cpp", "symbols": ["common::encode_partial_derivative", "common::decode_partial_derivative"]}]}
{"id": "C04", "title": "decoding any derivative encoding terminates with the documented orders", "statement": "For every 64-bit encoding e, decode_partial_derivative terminates and returns, per coordinate direction d, the sum of all p such that bit 3*(p-1)+d of e is set.", "quantifier": "all 64-bit encodings", "why_tests_cant": "2^64 inputs", "anchors": [{"file": "common/common.cpp", "symbols": ["common::decode_partial_derivative"]}]}
{"id": "C05", "title": "coincident-vertex search", "statement": "lagrange::find_coincident_vertex returns j when z[j] is the only vertex within tolerance of x, and an index that is not a valid vertex (SizeType(-1)) when no vertex is within tolerance. When two or more vertices are within tolerance the returned index is not any of them in general.", "quantifier": "all vertex counts, vertex positions and query points", "why_tests_cant": "unbounded vertex counts, real-valued positions", "anchors": [{"file": "elements/lagrange_polynomials.cpp", "symbols": ["lagrange::find_coincident_vertex"]}, {"file": "common/common.h", "symbols": ["common::almost_equal"]}]}
{"id": "C06", "title": "barycentric evaluation of a Lagrange basis function", "statement": "With weights from compute_barycentric_weights on pairwise distinct vertices, lagrange::eval(Nv,i,ic,Z,w,X) equals the i-th Lagrange basis polynomial at X for every X (coincident or not): it is 1 at vertex i, 0 at every other vertex, and the unique polynomial of degree < Nv with these values. (A point within the coincidence tolerance of a vertex is treated as that vertex.)", "quantifier": "all vertex counts, all distinct vertex sets, all evaluation points", "why_tests_cant": "uniqueness/equality of polynomials at all points for every N", "anchors": [{"file": "elements/lagrange_polynomials.cpp", "symbols": ["lagrange::compute_barycentric_weights", "lagrange::eval", "lagrange::find_coincident_vertex"]}]}
{"id": "C07", "title": "barycentric interpolation reproduces polynomials", "statement": "lagrange::eval_interp returns p(X) for the unique polynomial p of degree < Nv through the data (Z[j], c[j]); in particular it reproduces every polynomial of degree < Nv from its vertex values and equals sum_j c[j]*eval(j,X) (partition of unity for constant data).", "quantifier": "all vertex counts, data, evaluation points", "why_tests_cant": "quantifies over all polynomials and all points", "anchors": [{"file": "elements/lagrange_polynomials.cpp", "symbols": ["lagrange::eval_interp"]}]}
{"id": "C08", "title": "derivatives of the Lagrange interpolant", "statement": "lagrange::eval_der_interp(n, ...) returns the n-th derivative at X of the interpolating polynomial, for every order n >= 1, and lagrange::eval_der(n, i, ...) that of the i-th basis function.", "quantifier": "all derivative orders, vertex sets, data and points (coincident and not)", "why_tests_cant": "identity between an iterative divided-difference scheme and analytic derivatives for every N and n; the existing test only samples low orders", "anchors": [{"file": "elements/lagrange_polynomials.cpp", "symbols": ["lagrange::eval_der_interp", "lagrange::eval_der"]}]}
{"id": "C09", "title": "LagrangeElement basis is the nodal tensor-product basis", "statement": "LagrangeElement::eval_basis(I, X) is the product of the three 1-D basis polynomials selected by the mixed-radix digits of I; at the reference vertex with multi-index J it is 1 if I = J and 0 otherwise; the basis functions sum to 1 at every X.", "quantifier": "all element orders, all basis indices, all reference points", "why_tests_cant": "unbounded order, real-valued points", "anchors": [{"file": "elements/lagrange_element.cpp", "symbols": ["LagrangeElement::eval_basis"]}]}
{"id": "C10", "title": "sum-factorised evaluation equals the basis expansion", "statement": "LagrangeElement::eval_approx(c, X) equals sum_I c[I]*eval_basis(I,X), and eval_grad_approx(c,X) equals sum_I c[I]*eval_grad_basis(I,X), for every coefficient array, despite the shared workspace being overwritten between dimensions.", "quantifier": "all orders, coefficients and points", "why_tests_cant": "an equality of a stateful three-pass algorithm with its specification for every size", "anchors": [{"file": "elements/lagrange_element.cpp", "symbols": ["LagrangeElement::eval_approx", "LagrangeElement::eval_grad_approx", "LagrangeElement::eval_grad_basis"]}]}
{"id": "C11", "title": "element Jacobian, determinant and inverse are consistent", "statement": "LagrangeElement::eval_det_jac is the determinant of the matrix filled by eval_jac and, when it is non-zero, eval_inv_jac fills the two-sided inverse of that matrix.", "quantifier": "all vertex coordinates and reference points with a non-singular Jacobian", "why_tests_cant": "algebraic identity over all real matrices", "anchors": [{"file": "elements/lagrange_element.cpp", "symbols": ["LagrangeElement::eval_jac", "LagrangeElement::eval_det_jac", "LagrangeElement::eval_inv_jac"]}]}
{"id": "C12", "title": "Legendre evaluation is the orthogonal Legendre family", "statement": "legendre::eval(n, X) is a polynomial in X of degree n with P_n(1) = 1, P_n(-X) = (-1)^n P_n(X), and the functions are orthogonal on [-1,1] with squared norm 2/(2n+1).", "quantifier": "all degrees n >= 0, all X", "why_tests_cant": "orthogonality for every pair of degrees is an unbounded integral identity", "anchors": [{"file": "elements/legendre_polynomials.cpp", "symbols": ["legendre::eval"]}]}
{"id": "C13", "title": "Legendre derivatives", "statement": "legendre::eval_der(n, k, X) is the k-th derivative of legendre::eval(n, .) at X for every n and every k >= 1, and 0 for k > n.", "quantifier": "all degrees, orders and points", "why_tests_cant": "needs the Jacobi/Gegenbauer derivative identity for all n,k", "anchors": [{"file": "elements/legendre_polynomials.cpp", "symbols": ["legendre::eval_der"]}, {"file": "elements/jacobi_polynomials.cpp", "symbols": ["jacobi::eval", "jacobi::eval_der"]}]}
{"id": "C14", "title": "Jacobi derivatives for general parameters", "statement": "jacobi::eval_der(n,k,alpha,beta,X) is the k-th derivative of jacobi::eval(n,alpha,beta,.) at X for all alpha, beta > -1, n and k.", "quantifier": "all parameters, degrees, orders and points", "why_tests_cant": "two real parameters plus unbounded degrees; the tests only use alpha = beta = 0", "anchors": [{"file": "elements/jacobi_polynomials.cpp", "symbols": ["jacobi::eval_der"]}, {"file": "elements/jacobi_polynomials.h", "symbols": ["jacobi::a", "jacobi::b", "jacobi::c"]}]}
{"id": "C15", "title": "LegendreElement expansion", "statement": "LegendreElement::eval_approx and eval_grad_approx equal the sums over all basis indices of coefficient times eval_basis / eval_grad_basis.", "quantifier": "all orders, coefficients, points", "why_tests_cant": "same as C10 with a different workspace layout", "anchors": [{"file": "elements/legendre_element.cpp", "symbols": ["LegendreElement::eval_approx", "LegendreElement::eval_grad_approx", "LegendreElement::eval_basis"]}]}
{"id": "C16", "title": "equispaced point distribution", "statement": "equispaced_points(N,Zl,Zr,Z) with N >= 2 and Zl < Zr produces strictly increasing points from Zl to Zr with constant spacing; with N = 1 the only point is not finite (0/0).", "quantifier": "all N and intervals", "why_tests_cant": "unbounded N", "anchors": [{"file": "elements/point_distributions.cpp", "symbols": ["equispaced_points"]}]}
{"id": "C17", "title": "LU factorisation with pivoting", "statement": "If LU_decompos returns 1 on a non-singular n x n matrix, the stored factors multiply to the row-permuted input (L unit lower triangular, U upper triangular, permutation recorded in indx with sign parity); it returns 0 exactly when some row of the input is zero; slam.h says 0 is returned for every singular matrix.", "quantifier": "all sizes n and all real matrices", "why_tests_cant": "a loop-carried in-place algorithm for every n and every pivot order", "anchors": [{"file": "slam/slam.cpp", "symbols": ["slam::LU_decompos"]}]}
{"id": "C18", "title": "LU solve", "statement": "After a successful LU_decompos of a non-singular A, LU_backsub overwrites b with the unique x such that A x = b.", "quantifier": "all sizes, matrices, right-hand sides", "why_tests_cant": "unbounded n; correctness of the permutation unscrambling with the leading-zero skip depends on data", "anchors": [{"file": "slam/slam.cpp", "symbols": ["slam::LU_backsub", "slam::LU_decompos"]}]}
{"id": "C19", "title": "LU inverse and determinant", "statement": "After a successful LU_decompos of a non-singular A, LU_invert fills the inverse of A and LU_determ returns det A.", "quantifier": "all sizes and matrices", "why_tests_cant": "unbounded n", "anchors": [{"file": "slam/slam.cpp", "symbols": ["slam::LU_invert", "slam::LU_determ"]}]}
{"id": "C20", "title": "3x3 matrix inverse helper", "statement": "elements::mat_inverse fills the two-sided inverse of every 3x3 matrix with non-zero determinant.", "quantifier": "all 3x3 matrices", "why_tests_cant": "identity over R^9", "anchors": [{"file": "elements/elements.cpp", "symbols": ["elements::mat_inverse"]}]}
{"id": "C21", "title": "physical Jacobians and determinants 2D/3D/4D", "statement": "jacobian_2d/3d/4d fill J(j,k) = sum over vertices v of x_k(v) * d(basis_v)/d(xi_j), whatever J held before, and return det J.", "quantifier": "all element geometries and points", "why_tests_cant": "identity over all real vertex coordinates", "anchors": [{"file": "elements/elements.cpp", "symbols": ["elements::jacobian_2d", "elements::jacobian_3d", "elements::jacobian_4d"]}]}
{"id": "C22", "title": "inverse Jacobians 2D/3D/4D", "statement": "jacobian_inverse_2d/3d/4d fill the inverse of the supplied Jacobian when given its non-zero determinant.", "quantifier": "all non-singular Jacobians", "why_tests_cant": "identity over all real matrices", "anchors": [{"file": "elements/elements.cpp", "symbols": ["elements::jacobian_inverse_2d", "elements::jacobian_inverse_3d", "elements::jacobian_inverse_4d"]}]}
{"id": "C23", "title": "serendipity and linear shape functions are nodal", "statement": "For Quad4, Quad8, Quad12, Hex8, Hex20, Hex32 and Tess16 the basis routine returns functions that are 1 at their own reference vertex, 0 at all others, and sum to 1 at every point of the reference element.", "quantifier": "all points of the reference space (real), all vertices", "why_tests_cant": "partition of unity at all points", "anchors": [{"file": "elements/elements.cpp", "symbols": ["Quad4::basis", "Quad8::basis", "Quad12::basis", "Hex8::basis", "Hex20::basis", "Hex32::basis", "Tess16::basis"]}]}
{"id": "C24", "title": "shape-function partials are the derivatives of the shape functions", "statement": "For each fixed-order element, partial_xi_basis, partial_eta_basis, partial_mu_basis (and partial_tau_basis) return the partial derivatives of the functions returned by basis at every point.", "quantifier": "all points, all vertices, all element types", "why_tests_cant": "calculus identity at all points", "anchors": [{"file": "elements/elements.cpp", "symbols": ["Quad4::partial_xi_basis", "Quad8::partial_xi_basis", "Quad12::partial_xi_basis", "Hex8::partial_xi_basis", "Hex20::partial_xi_basis", "Hex32::partial_xi_basis", "Tess16::partial_tau_basis"]}]}
{"id": "C25", "title": "vertex-to-node maps", "statement": "vert_node_map(v) of each element is the index of the sub-cell lattice node located at reference vertex v; in particular it is injective.", "quantifier": "all vertices of every element type", "why_tests_cant": "table relation that no test exercises; must be consistent with node ordering for every vertex", "anchors": [{"file": "elements/elements.cpp", "symbols": ["Quad4::vert_node_map", "Quad8::vert_node_map", "Quad12::vert_node_map", "Hex8::vert_node_map", "Hex20::vert_node_map", "Hex32::vert_node_map", "HexN::vert_node_map"]}]}
{"id": "C26", "title": "surface dof lists", "statement": "surface_to_dof_lid(s, .) of each element lists exactly the vertices lying on one face/edge of the reference element, each once, and the listed faces are all distinct.", "quantifier": "all surfaces of all fixed-order elements", "why_tests_cant": "completeness of tables", "anchors": [{"file": "elements/elements.cpp", "symbols": ["Quad4::Quad4", "Quad8::Quad8", "Quad12::Quad12", "Hex8::Hex8", "Hex20::Hex20", "Hex32::Hex32"]}]}
{"id": "C27", "title": "physical_position is the isoparametric map", "statement": "physical_position(xi, vertices) reads only the supplied vertices and returns sum_v vertices(v)*basis_v(xi), independent of the previous content of the output; hence it maps reference vertices to physical vertices and affine geometry exactly.", "quantifier": "all points, all vertex coordinates, all prior output contents", "why_tests_cant": "memory-safety and functional claim for all inputs", "anchors": [{"file": "elements/elements.cpp", "symbols": ["Quad4::physical_position", "Hex8::physical_position", "Hex20::physical_position", "Hex32::physical_position", "QuadN::physical_position", "Tess16::physical_position"]}]}
{"id": "C28", "title": "arbitrary-order 1-D Lagrange interpolants and derivatives", "statement": "QuadN::lagrange_1D and HexN::lagrange_basis_1D / lagrange_derivative_1D return, for pairwise distinct nodes, the Lagrange basis polynomials and their first derivatives at the point.", "quantifier": "all orders, node positions, points", "why_tests_cant": "unbounded order", "anchors": [{"file": "elements/elements.cpp", "symbols": ["QuadN::lagrange_1D", "HexN::lagrange_basis_1D", "HexN::lagrange_derivative_1D"]}]}
{"id": "C29", "title": "HexN / QuadN tensor-product basis", "statement": "HexN::basis / partial_*_basis and QuadN::basis_partials return the tensor products of the 1-D functions in lexicographic vertex order; they are nodal, sum to 1, and the partials sum to 0.", "quantifier": "all orders and points", "why_tests_cant": "unbounded order", "anchors": [{"file": "elements/elements.cpp", "symbols": ["HexN::basis", "HexN::partial_xi_basis", "HexN::partial_eta_basis", "HexN::partial_mu_basis", "QuadN::basis_partials"]}]}
{"id": "C30", "title": "tabulated quadrature is accurate", "statement": "legendre_nodes_1D/legendre_weights_1D with num points integrate every polynomial of degree <= 2num-1 over [-1,1], and lobatto_nodes_1D/lobatto_weights_1D every polynomial of degree <= 2num-3, up to rounding of the tabulated literals (relative error at the level of double precision); nodes are increasing, symmetric and inside [-1,1].", "quantifier": "all polynomials up to the exactness degree, all tabulated rules", "why_tests_cant": "quantifies over all polynomials; a wrong digit in one literal is invisible to smoke tests", "anchors": [{"file": "elements/elements.cpp", "symbols": ["elements::legendre_nodes_1D", "elements::legendre_weights_1D", "elements::lobatto_nodes_1D", "elements::lobatto_weights_1D"]}]}
{"id": "C31", "title": "tensor-product quadrature points", "statement": "gauss_2d/3d/4d and lobatto_2d/3d/4d enumerate every combination of 1-D points exactly once in lexicographic order with the product weight; so they integrate products of 1-D functions to the product of the 1-D quadratures.", "quantifier": "all orders, all integrands", "why_tests_cant": "quantifies over all integrands; index arithmetic for every order", "anchors": [{"file": "elements/elements.cpp", "symbols": ["elements::gauss_2d", "elements::gauss_3d", "elements::gauss_4d", "elements::lobatto_2d", "elements::lobatto_3d", "elements::lobatto_4d"]}]}
{"id": "C32", "title": "reference-element index maps are bijections", "statement": "ref_element node_rid/cell_rid/corner_rid are bijections between (i,j,k) and linear ids; every reference cell belongs to exactly one zone slot; ref_nodes_in_cell / ref_corners_in_cell list the 8 lattice corners of each cell, and every corner belongs to exactly one cell.", "quantifier": "all polynomial orders", "why_tests_cant": "unbounded order", "anchors": [{"file": "elements/elements.cpp", "symbols": ["ref_element::init", "ref_element::node_rid", "ref_element::cell_rid", "ref_element::corner_rid"]}]}
{"id": "C33", "title": "reference corner weights split node weights", "statement": "The corner weights computed by ref_element::init are non-negative splits of the nodal quadrature weights: for each node the weights of the corners at that node sum to the node weight, so the total corner weight equals the total quadrature weight.", "quantifier": "all orders and nodal weights", "why_tests_cant": "sum identity for unbounded order", "anchors": [{"file": "elements/elements.cpp", "symbols": ["ref_element::init"]}]}
{"id": "C34", "title": "reference patch numbering", "statement": "ref_element::init numbers each reference patch once: two cells that share a face refer to the same patch id, no other cells do, and exactly 3*n*n*(n+1) ids are used for n cells per direction.", "quantifier": "all orders", "why_tests_cant": "unbounded order; sharing logic via neighbours", "anchors": [{"file": "elements/elements.cpp", "symbols": ["ref_element::init"]}]}
{"id": "C35", "title": "node-to-cell connectivity", "statement": "After build_node_cell_connectivity, for every node n the list cells_in_node(n, 0..num_cells_in_node(n)-1) contains exactly the (cell,slot) incidences of n, in increasing cell order, and no write is out of bounds.", "quantifier": "all meshes (any number of cells and nodes, any valid nodes_in_cell)", "why_tests_cant": "quantifies over all meshes", "anchors": [{"file": "swage/swage.cpp", "symbols": ["mesh_t::build_node_cell_connectivity", "mesh_t::cells_in_node", "mesh_t::num_cells_in_node"]}]}
{"id": "C36", "title": "corner connectivity", "statement": "After build_corner_connectivity every corner id in [0, 8*num_cells) appears in exactly one node's corner list, corners_in_cell(c,l) is a bijection, and corners_in_node(n, .) lists exactly the corners whose cell vertex is n.", "quantifier": "all meshes", "why_tests_cant": "quantifies over all meshes", "anchors": [{"file": "swage/swage.cpp", "symbols": ["mesh_t::build_corner_connectivity", "mesh_t::corners_in_node", "mesh_t::corners_in_cell"]}]}
{"id": "C37", "title": "cell-to-cell connectivity", "statement": "After build_cell_cell_connectivity, cells_in_cell(c, .) lists exactly the cells different from c that share at least one node with c, each once; the relation is symmetric; and the builder performs no out-of-bounds access.", "quantifier": "all meshes", "why_tests_cant": "quantifies over all meshes; the out-of-bounds case appears only for special meshes", "anchors": [{"file": "swage/swage.cpp", "symbols": ["mesh_t::build_cell_cell_connectivity", "mesh_t::cells_in_cell"]}]}
{"id": "C38", "title": "patch connectivity", "statement": "After build_patch_connectivity two cell sides get the same patch id iff they are the same geometric face, and cells_in_patch lists the (one or two) cells of the patch with -1 marking the boundary.", "quantifier": "all conforming meshes", "why_tests_cant": "correctness depends on a geometric hash with a mesh-dependent bin size", "anchors": [{"file": "swage/swage.cpp", "symbols": ["mesh_t::build_patch_connectivity", "mesh_t::cells_in_patch"]}]}
{"id": "C39", "title": "element connectivity", "statement": "After build_element_connectivity elems_in_node lists the element incidences of every node, nodes_in_elem(e,g) is the node at the g-th Gauss point of e, and elems_in_elem lists exactly the other elements sharing a node, each once.", "quantifier": "all meshes", "why_tests_cant": "quantifies over all meshes", "anchors": [{"file": "swage/swage.cpp", "symbols": ["mesh_t::build_element_connectivity"]}]}
{"id": "C40", "title": "boundary patches", "statement": "build_bdy_patches lists exactly the patches having a missing neighbour, each once, in increasing order.", "quantifier": "all patch tables", "why_tests_cant": "quantifies over all meshes", "anchors": [{"file": "swage/swage.cpp", "symbols": ["mesh_t::build_bdy_patches"]}]}
{"id": "C41", "title": "boundary set tagging", "statement": "After tag_bdys has been called for sets 0..k in increasing order, bdy_patches_in_set(s, .) lists exactly the boundary patches satisfying set s's geometric criterion; calling it with a set index beyond the allocated sets is rejected.", "quantifier": "all boundary patch lists, criteria and call sequences", "why_tests_cant": "claims about every call history", "anchors": [{"file": "swage/swage.cpp", "symbols": ["mesh_t::tag_bdys", "mesh_t::check_bdy", "mesh_t::init_bdy_sets"]}]}
{"id": "C42", "title": "refinement merges coincident nodes exactly once", "statement": "refine_mesh assigns the same node id to two Gauss points iff they fall in the same spatial bin, ids are consecutive from 0, and node_coords of an id are the coordinates of its first Gauss point; cells sharing a face or an edge, in any relative orientation, share the nodes on it.", "quantifier": "all key sequences (all meshes and bin sizes)", "why_tests_cant": "depends on the whole history of hash touches", "anchors": [{"file": "swage/swage.cpp", "symbols": ["swage::refine_mesh"]}, {"file": "swage/refine_high_order_mesh.cpp", "symbols": ["swage::refine_high_order_mesh"]}]}
{"id": "C43", "title": "refined cells: lattice structure", "statement": "In refine_mesh, for every mesh whose cells have eight distinct vertices, each element's sub-cells get consecutive global ids that partition [0, num_cells); gauss_in_cell gives the 8 surrounding lattice Gauss points inside the element's Gauss-id range; elems_in_cell inverts cells_in_elem.", "quantifier": "all orders and element counts", "why_tests_cant": "unbounded order and element count", "anchors": [{"file": "swage/swage.cpp", "symbols": ["swage::refine_mesh"]}]}
{"id": "C44", "title": "refined Gauss points lie in the element", "statement": "For every mesh whose cells have eight distinct vertices, the physical Gauss-point positions computed by refine_mesh are convex combinations of the 8 element vertices; corner points coincide with vertices; and the map is exact for affine elements.", "quantifier": "all vertex coordinates, all Lobatto positions in [-1,1]", "why_tests_cant": "real-valued geometry", "anchors": [{"file": "swage/swage.cpp", "symbols": ["swage::refine_mesh"]}]}
{"id": "C45", "title": "element size bookkeeping", "statement": "init_element derives consistent counts for every order: nodes/gauss points (2p+1)^3, cells (2p)^3, zones p^3 with 8 cells per zone, patches 3*(2p)^2*(2p+1), with the order-0 special case 8/1/1/6.", "quantifier": "all orders p >= 0 and element counts", "why_tests_cant": "unbounded order", "anchors": [{"file": "swage/swage.cpp", "symbols": ["mesh_t::init_element"]}]}
{"id": "C46", "title": "hexahedron volume", "statement": "get_vol_hex returns the exact volume of every trilinear hexahedron (integral of the Jacobian determinant), is invariant under translation, and equals the edge-triple-product for parallelepipeds.", "quantifier": "all vertex coordinates", "why_tests_cant": "polynomial identity over R^24", "anchors": [{"file": "geometry/geometry.cpp", "symbols": ["get_vol_hex"]}]}
{"id": "C47", "title": "cell centre computed with the hexahedron volume", "statement": "After get_vol_hex, reading mesh.cell_coords(c, d) gives the average of coordinate d over the cell's own 8 nodes, whatever cells were processed before and whatever the arrays contained.", "quantifier": "all meshes, all processing histories", "why_tests_cant": "stale data from the previous cell is invisible on a single-cell test", "anchors": [{"file": "geometry/geometry.cpp", "symbols": ["get_vol_hex"]}, {"file": "swage/swage.cpp", "symbols": ["mesh_t::cell_coords"]}]}
{"id": "C48", "title": "Gauss-point Jacobian of affine elements", "statement": "get_gauss_pt_jacobian fills J(i,j) = sum_v d(basis_v)/d(xi_j) * x_i(v), its determinant and inverse; with a basis reproducing linear functions, an affine element's Jacobian is the constant linear part of the map.", "quantifier": "all elements and Gauss points", "why_tests_cant": "real-valued geometry", "anchors": [{"file": "geometry/geometry.cpp", "symbols": ["get_gauss_pt_jacobian"]}]}
{"id": "C49", "title": "volumes are additive over corners", "statement": "get_vol_jacobi sets each cell volume to the weighted sum over its corners and each element volume to the sum over its cells, so the element volume equals the Gauss-Lobatto quadrature of det J.", "quantifier": "all meshes", "why_tests_cant": "sum identity for all sizes", "anchors": [{"file": "geometry/geometry.cpp", "symbols": ["get_vol_jacobi"]}]}
{"id": "C50", "title": "matrix product and matrix-vector wrappers", "statement": "matar_blas_lapack matvec/matmul compute A x and A B for all conforming shapes and access the packed copies only in bounds.", "quantifier": "all shapes and entries", "why_tests_cant": "layout errors appear only for rectangular shapes", "anchors": [{"file": "common/matar_blas_lapack_interface.cpp", "symbols": ["matvec", "matmul", "transpose", "invert"]}]}
{"id": "C51", "title": "VTK vertex maps are inverse permutations", "statement": "make_vtk_vert_map(order,map,false) and (order,map,true) fill mutually inverse permutations of the element vertices, so writing a mesh with init_vtk_grid and reading it with init_swage_mesh restores node coordinates and connectivity.", "quantifier": "all orders, all meshes", "why_tests_cant": "unbounded order; relies on the enumeration of all (I,J,K)", "anchors": [{"file": "io/vtk_io.cpp", "symbols": ["swage2vtk::make_vtk_vert_map", "swage2vtk::init_vtk_grid", "swage2vtk::init_swage_mesh"]}]}
{"id": "C52", "title": "box mesh connectivity", "statement": "The box mesh generator numbers points and cells bijectively, lists for each cell its 8 lattice points in finite-element order, numbers each face exactly once, and records for each face the cells on its two sides.", "quantifier": "all box dimensions", "why_tests_cant": "unbounded dimensions; boundary faces are the special cases", "anchors": [{"file": "mesh_tools/box_mesh_creator/meshbox.cpp", "symbols": ["main", "get_id"]}]}
{"id": "C53", "title": "mesh file vertex order round-trips", "statement": "A cell written by the Ensight writer and read back by read_mesh has the same local vertex order (orientation preserved).", "quantifier": "all cells", "why_tests_cant": "orientation reversal is not visible in a smoke test", "anchors": [{"file": "examples/average/test/average.cpp", "symbols": ["read_mesh", "ensight"]}, {"file": "mesh_tools/box_mesh_creator/meshbox.cpp", "symbols": ["Ensight"]}]}
{"id": "C54", "title": "smoothing obeys a maximum principle", "statement": "smooth_cells and smooth_element replace nodal values by averages: constants are preserved and new values stay within the range of the old values, for any number of cycles.", "quantifier": "all meshes, fields and cycle counts", "why_tests_cant": "claims about every history of smoothing cycles", "anchors": [{"file": "examples/average/test/average.cpp", "symbols": ["smooth_cells", "smooth_element"]}]}
{"id": "C55", "title": "region fills", "statement": "initialize_state assigns a fill's value exactly to the cells whose centre lies in the fill's region, later fills overriding earlier ones.", "quantifier": "all meshes and fill lists", "why_tests_cant": "switch fall-through depends on unrelated (uninitialised) fields", "anchors": [{"file": "examples/average/test/average.cpp", "symbols": ["initialize_state"]}]}
{"id": "C56", "title": "sub-cell weights partition quadrature weights", "statement": "sub_weights / length_weights split the 1-D quadrature weights without loss: the sub-cell weights sum to the total reference length.", "quantifier": "all tabulated orders", "why_tests_cant": "exact identity including irrational literals", "anchors": [{"file": "elements/elements.cpp", "symbols": ["elements::sub_weights", "elements::length_weights"]}]}
{"id": "C57", "title": "Chebyshev point distribution", "statement": "chebyshev_points(N,Zl,Zr,Z) with Zl < Zr fills points that lie strictly between Zl and Zr, are strictly increasing and symmetric about the midpoint, and are, mapped to [-1,1], zeros of the Chebyshev polynomial T_N.", "quantifier": "all N, all end points", "why_tests_cant": "claims over all N and real end points", "anchors": [{"file": "elements/point_distributions.cpp", "symbols": ["chebyshev_points"]}]}
{"id": "C58", "title": "Chebyshev nodes of the arbitrary-order elements", "statement": "elements::chebyshev_nodes_1D fills order+1 nodes that run strictly increasing from exactly -1 to exactly 1 and are symmetric about 0, for every order >= 1.", "quantifier": "all orders", "why_tests_cant": "unbounded order, trigonometric values", "anchors": [{"file": "elements/elements.cpp", "symbols": ["elements::chebyshev_nodes_1D"]}]}
{"id": "C59", "title": "LU pivoting bounds the multipliers", "statement": "LU_decompos uses (scaled) partial pivoting: for a non-singular input no stored multiplier (strict lower triangle) exceeds 1 in magnitude.", "quantifier": "all sizes, all non-singular matrices", "why_tests_cant": "growth of the factors depends on every pivot choice made during the factorisation", "anchors": [{"file": "slam/slam.cpp", "symbols": ["LU_decompos"]}]}
{"id": "C60", "title": "HexN vertex and node tables", "statement": "After setup_HexN(order) there are 2*order+1 nodes and order+1 vertices per direction (2 and 2 for order 0); vert_node_map sends the vertex with lattice coordinates (a,b,c) to the node with lattice coordinates 2(a,b,c) (order 0: (a,b,c)), always a valid node id, and node_coords of that node are the 1-D vertex positions used by the basis.", "quantifier": "all orders, all 1-D node tables", "why_tests_cant": "an index identity for an unbounded family of lattices filled through a running counter", "anchors": [{"file": "elements/elements.cpp", "symbols": ["HexN::setup_HexN", "HexN::create_lobatto_nodes", "HexN::vert_node_map"]}]}
{"id": "C61", "title": "QuadN physical position and corners", "statement": "QuadN::physical_position with the basis of QuadN::basis_partials returns the interpolated position whatever the output array held before (affine vertex arrangements are mapped exactly), and QuadN::corners returns the four lattice corner vertices.", "quantifier": "all orders, vertex positions, points and previous output contents", "why_tests_cant": "the result depends on the history of the output array", "anchors": [{"file": "elements/elements.cpp", "symbols": ["QuadN::physical_position", "QuadN::corners"]}]}
{"id": "C62", "title": "surface and interior nodes of the reference element", "statement": "After ref_element::init the list of interior nodes contains exactly the nodes that are not on the boundary of the reference lattice and the list of surface nodes exactly the others, each once and in increasing order; the two lists partition the nodes.", "quantifier": "all orders, any previous contents of memory", "why_tests_cant": "a counting claim about an unbounded family of lattices, decided through a neighbour test in the loop", "anchors": [{"file": "elements/elements.cpp", "symbols": ["ref_element::init", "ref_element::ref_surface_nodes_in_elem", "ref_element::ref_inside_nodes_in_elem"]}]}
{"id": "C63", "title": "patch and cell quadrature points of the reference element", "statement": "The quadrature point of a cell patch lies in the plane of the patch (Gauss-Lobatto coordinate) at the Gauss-Legendre coordinates of its cell, with the product of the two tangential Legendre weights; the point of a cell has the three Legendre coordinates and the product weight and, for the tabulated orders, lies strictly inside its cell. Both cells at a patch see the same point and weight.", "quantifier": "all orders, cells and sides", "why_tests_cant": "the position of a patch is written by one of the two adjacent cells and must suit the other", "anchors": [{"file": "elements/elements.cpp", "symbols": ["ref_element::init"]}]}
{"id": "C64", "title": "corner surfaces of the reference element", "statement": "Each of the three outer surfaces of a corner has the unit normal of its direction pointing away from the centre of its cell, and a weight that is the product of the two tangential corner weights; over the eight corners of a cell the weighted normals of every direction cancel (the cell surface is closed).", "quantifier": "all orders, corners and cells", "why_tests_cant": "closure is a sum over every cell of an unbounded lattice", "anchors": [{"file": "elements/elements.cpp", "symbols": ["ref_element::init", "ref_element::ref_corner_surface_normals", "ref_element::ref_corner_g_surface_weights"]}]}
{"id": "C65", "title": "tabulated basis and gradients of the reference element", "statement": "The tables of basis values and gradients at the nodes, patch points and cell points hold the values and partial derivatives of the Lagrange basis of the vertices: values sum to one, gradients to zero, both reproduce linear fields, and at the vertex nodes the values are one or zero.", "quantifier": "all tabulated orders (up to 9), all points and vertices, any previous contents of memory", "why_tests_cant": "thousands of table entries per order, real-valued identities", "anchors": [{"file": "elements/elements.cpp", "symbols": ["ref_element::init", "ref_element::ref_nodal_basis", "ref_element::ref_nodal_gradient", "ref_element::ref_patch_gradient", "ref_element::ref_cell_gradient"]}]}
{"id": "C66", "title": "matrix transposition and inversion wrappers", "statement": "transpose fills the transposed matrix for every shape; invert fills the two-sided inverse of every nonsingular matrix (given a LAPACK meeting its contract), and a singular matrix is not reported as inverted.", "quantifier": "all shapes, orders and entries, any contents of uninitialised memory", "why_tests_cant": "layouts differ only for some shapes; singular inputs are rare in tests", "anchors": [{"file": "common/matar_blas_lapack_interface.cpp", "symbols": ["transpose", "invert"]}]}
{"id": "C67", "title": "Gauss-Jacobi rules integrate every polynomial up to degree 2n-1", "statement": "compute_gauss_jacobi_quadrature_rule(n, alpha, beta) returns n points and weights that integrate every polynomial of degree at most 2n-1 exactly against (1-x)^alpha (1+x)^beta on [-1,1].", "quantifier": "all n >= 1, all alpha, beta > -1, all polynomials of degree up to 2n-1", "why_tests_cant": "unbounded number of points, real parameters, all polynomials", "anchors": [{"file": "elements/gauss_jacobi_quadrature.cpp", "symbols": ["compute_gauss_jacobi_quadrature_rule"]}, {"file": "elements/jacobi_polynomials.h", "symbols": ["jacobi::a", "jacobi::b", "jacobi::c"]}, {"file": "common/matar_blas_lapack_interface.cpp", "symbols": ["eig_sym_tri"]}]}
{"id": "C68", "title": "corner normals of the reference cell", "statement": "set_unit_normals fills an 8 by 3 array with the outward direction of every corner of the reference cell (component d is +1 if corner c lies on the upper side in direction d and -1 otherwise); the eight directions add up to zero.", "quantifier": "all previous contents of the array, all corners and directions", "why_tests_cant": "every entry must be written, whatever the array held before", "anchors": [{"file": "elements/elements.cpp", "symbols": ["elements::set_unit_normals"]}]}
{"id": "C69", "title": "high-order refinement", "statement": "For element orders 1 to 9, refine_high_order_mesh completes without out-of-bounds access; Gauss point (i,j,k) of an element is the image of the Lobatto point under the degree-p interpolant of the element's equally spaced vertices (exact for polynomial maps; corner points are corner vertices); sub-cell ids partition [0, num_cells) and gauss_in_cell, elems_in_cell, nodes_in_cell list the lattice neighbours; two Gauss points get the same node iff they coincide, so elements sharing a face or an edge, in any relative orientation, share its nodes.", "quantifier": "all meshes, orders, vertex coordinates and face orientations", "why_tests_cant": "real-valued geometry over all meshes; depends on the whole history of hash touches", "anchors": [{"file": "swage/refine_high_order_mesh.cpp", "symbols": ["swage::refine_high_order_mesh"]}, {"file": "elements/lagrange_element.cpp", "symbols": ["LagrangeElement::eval_approx"]}, {"file": "elements/point_distributions.cpp", "symbols": ["equispaced_points"]}]}
{"id": "C70", "title": "Jacobian determinants at the Gauss points", "statement": "After swage::evaluate_jacobian_determinants the entry of gauss_pt_det_j of each Gauss point of each element is the determinant of the Jacobian, at that point, of the element's degree-p map; no array is accessed out of bounds and no other entry changes.", "quantifier": "all meshes, element orders 1 to 9, node positions and previous array contents", "why_tests_cant": "an analytic derivative at every point of every element, and an array indexed by ids that depend on the whole mesh", "anchors": [{"file": "swage/evaluate_jacobian_determinants.cpp", "symbols": ["swage::evaluate_jacobian_determinants"]}, {"file": "elements/lagrange_element.cpp", "symbols": ["LagrangeElement::eval_det_jac"]}]}
{"id": "C71", "title": "the annulus example and its determinants", "statement": "For every element order p >= 1, create_annular_mesh builds two conforming elements of the half annulus without out-of-bounds access (vertices at their places, two vertices are one node iff they are at one place, every node used); compute_jacobian_determinants returns, for any valid mesh, the Jacobian determinant of the interpolated element map at each vertex; on the annulus these are positive, equal in both elements and at all heights, and within relative error (pi/(2p))^p/(p+1) of the exact value r*pi/4.", "quantifier": "all orders, vertices and (for compute_jacobian_determinants) meshes", "why_tests_cant": "every order, real-valued trigonometric geometry, analytic error bound", "anchors": [{"file": "examples/vtk/plotting_jacobian_determinants.cpp", "symbols": ["create_annular_mesh", "compute_jacobian_determinants"]}]}
{"id": "C72", "title": "accuracy of interpolation of smooth functions", "statement": "For an N times continuously differentiable function f sampled at the N vertices, lagrange::eval_interp at X is off by f^(N)(c)/N! * prod (X - Z_j) for some c in the interval (so by at most M/N! * prod |X - Z_j|, plus at most a Lipschitz constant times the tolerance where X is taken for a vertex); the first derivative from eval_der_interp at a vertex is off by f^(N)(c)/N! * prod_{j != i} (Z_i - Z_j); LagrangeElement::eval_approx of samples of a function of three variables satisfies the corresponding tensor bound.", "quantifier": "all smooth functions, vertex sets and points", "why_tests_cant": "quantifies over all functions; an existential mean-value statement", "anchors": [{"file": "elements/lagrange_polynomials.cpp", "symbols": ["lagrange::eval_interp", "lagrange::eval_der_interp"]}, {"file": "elements/lagrange_element.cpp", "symbols": ["LagrangeElement::eval_approx"]}]}
{"id": "C73", "title": "volumes of curved elements", "statement": "Every element of order at most 9 is the image of the reference cube under a polynomial map of degree at most p in each variable. For orders 1 to 9, get_gauss_pt_jacobian followed by get_vol_jacobi gives the integral of the Jacobian determinant of that map, up to the accuracy of the tabulated weights; if the map is injective and nowhere inverted this is the Lebesgue measure of the curved element. For order 0 (trilinear elements) it is not: a frustum of volume 26/3 gets the volume 10.", "quantifier": "all meshes of orders 0 to 9, all node positions, all polynomial element maps", "why_tests_cant": "real-valued positions; the claim is about an integral over every curved element", "anchors": [{"file": "geometry/geometry.cpp", "symbols": ["get_gauss_pt_jacobian", "get_vol_jacobi"]}, {"file": "elements/elements.cpp", "symbols": ["ref_element::init"]}]}
{"id": "C74", "title": "the geometry checks of the Average example", "statement": "For every element of order 0 to 9 whose Jacobian is invertible at the patch points, the three sums of area-weighted side normals that the Average example prints after get_gauss_patch_pt_jacobian are exactly zero if the element is an affine image of the reference cube, and zero up to the accuracy of the tabulated points if it is curved. For orders 1 to 9 the element volume it computes from get_gauss_cell_pt_jacobian and the cell weights is the integral of the Jacobian determinant of the element map, up to the accuracy of the weights. All accesses are in bounds.", "quantifier": "all meshes of orders 0 to 9 and all node positions", "why_tests_cant": "real-valued positions; the example prints the sums for one mesh only", "anchors": [{"file": "examples/average/test/average.cpp", "symbols": ["main"]}, {"file": "geometry/geometry.cpp", "symbols": ["get_gauss_patch_pt_jacobian", "get_gauss_cell_pt_jacobian"]}, {"file": "elements/elements.cpp", "symbols": ["ref_element::cell_side_unit_normals"]}]}
{"id": "C75", "title": "the run of the Average example and its graphics dumps", "statement": "For all settings, the run of the Average example makes one smoothing cycle per time step of 0.001 until TFINAL or cycle_stop, and writes a graphics dump of the initial state, every graphics_cyc_ival cycles and every graphics_dt_ival of time before TFINAL, and of the final state. The dumps are numbered consecutively, each shows the cell field at that cycle, the number and the alternating colour of the element of each cell, and the node positions, and the case file lists the times of all dumps so far.", "quantifier": "all valid meshes, initial fields and settings, any number of cycles", "why_tests_cant": "the number of cycles and dumps is unbounded; the example is run with one set of settings", "anchors": [{"file": "examples/average/test/average.cpp", "symbols": ["main", "ensight"]}, {"file": "examples/average/src/input.cpp", "symbols": ["input"]}]}
{"id": "C76", "title": "the polyhedra written by vtk_writer", "statement": "For any number of cells and any node numbering, a reader of the .vtu file written by vtk_writer of the Average example gets, for every cell, a polyhedron whose points are the eight nodes of the cell in order and whose faces are the six sides of the cell, each a closed quadrilateral along the edges of the cell, with exactly two faces at every edge; the offset arrays delimit exactly the data of each cell.", "quantifier": "all numbers of cells and all cell-node tables", "why_tests_cant": "unbounded mesh sizes; the function is not called by any test", "anchors": [{"file": "examples/average/test/average.cpp", "symbols": ["vtk_writer"]}, {"file": "swage/swage.cpp", "symbols": ["mesh_t::node_in_patch_in_cell"]}]}
{"id": "C77", "title": "the setup of the Average example", "statement": "For every conforming hexahedral mesh read from the file, every element order the mesh can be refined to, every list of boundary conditions and whatever the allocated memory contains, the setup of the Average example (connectivity of the initial mesh, refine_mesh, connectivity of the refined mesh, generate_bcs) accesses no array out of bounds and gives a mesh with different nodes at different places, every cell in its element and every node in some cell; boundary set b consists of exactly the nodes of the boundary faces that meet condition b, and for a plane bounding the domain these are exactly the nodes on the plane.", "quantifier": "all meshes, orders 0 to 5, boundary conditions and contents of uninitialised memory", "why_tests_cant": "the hash tables, id tables and list sizes depend on the whole mesh; composition of eight routines", "anchors": [{"file": "examples/average/test/average.cpp", "symbols": ["read_mesh", "generate_bcs"]}, {"file": "swage/swage.cpp", "symbols": ["refine_mesh", "mesh_t::build_connectivity", "mesh_t::init_bdy_sets", "mesh_t::tag_bdys"]}]}
{"id": "C78", "title": "the whole Average example", "statement": "For every mesh file covering a domain between the planes x = 0 and x = 2, the Average example with the settings of input runs to its end without undefined behaviour, whatever uninitialised memory contains, writes 51 dumps at times 0, 0.01, ..., 0.5, and ends with the nodal field 10 on x = 0 and 0 on x = 2 and with all nodal and cell values, in all dumps, between 0 and 10.", "quantifier": "all mesh files, all contents of uninitialised memory, 500 cycles", "why_tests_cant": "composition of reading, refinement, connectivity, fills and 500 smoothing cycles on meshes of every size", "anchors": [{"file": "examples/average/test/average.cpp", "symbols": ["main", "read_mesh", "generate_bcs", "allocate_state", "initialize_state", "apply_boundary"]}, {"file": "examples/average/src/input.cpp", "symbols": ["input"]}]}
{"id": "C79", "title": "from the box mesh generator to the results of the Average example", "statement": "For every box of at least two cells and fewer than 10^9 points whose spacing is at least a thousandth of the largest coordinate in each direction and at most 6.9 in some direction, the file written by the box mesh generator (coordinates rounded to six digits) is read by the Average example, which runs with the settings of input to its end without undefined behaviour, whatever uninitialised memory contains; the refined mesh has 216 cells per box cell and different nodes at different places; 51 dumps are written; all values lie in [0, 10]; the nodal field is 10 on the face x = 0 and 0 on the face x = 2 of a box with these faces.", "quantifier": "all boxes (numbers of cells, lengths, shifts), all decimal roundings to a nearest number, all contents of uninitialised memory", "why_tests_cant": "composition of generator, text format, reader, refinement, hash tables and 500 cycles for meshes of every size", "anchors": [{"file": "mesh_tools/box_mesh_creator/meshbox.cpp", "symbols": ["main", "Ensight"]}, {"file": "examples/average/test/average.cpp", "symbols": ["main", "read_mesh"]}, {"file": "swage/swage.cpp", "symbols": ["refine_mesh"]}]}
{"id": "C80", "title": "file names and the trip of a mesh through a VTK file", "statement": "write_grid and read_grid use the XML format exactly for names ending in .vtu and the legacy format exactly for names ending in .vtk, upper or lower case; any other name writes nothing and reads a null grid without an error. write_grid changes no other file. A mesh written with init_vtk_grid and write_grid and read with read_grid and init_swage_mesh under the same name keeps order, counts, connectivity and, to the precision of VTK's point array, the coordinates of all nodes in elements.", "quantifier": "all file names, file systems, grids, meshes and orders", "why_tests_cant": "unbounded strings and meshes; the tests never read or write a grid file", "anchors": [{"file": "io/vtk_io.cpp", "symbols": ["swage2vtk::read_grid", "swage2vtk::write_grid", "swage2vtk::init_vtk_grid", "swage2vtk::init_swage_mesh"]}]}
{"id": "C81", "title": "the VTK example program from mesh to file", "statement": "For every element order p >= 1 the example plotting_jacobian_determinants runs without undefined behaviour and writes to output.vtk (and to no other file) a grid with 2(p+1)^3-(p+1)^2 points and two Lagrange hexahedra: the point VTK expects at lattice position (i,j,k) of a cell is at the place of the vertex on the half annulus, and its data is the Jacobian determinant of the element map at this vertex, the same from both elements on the shared face, positive and within relative error (pi/(2p))^p/(p+1) of r*pi/4.", "quantifier": "all orders, all contents of uninitialised memory and all file systems", "why_tests_cant": "every order (the program is shipped with order 2); the last writer of a shared node must not matter", "anchors": [{"file": "examples/vtk/plotting_jacobian_determinants.cpp", "symbols": ["main", "create_annular_mesh", "compute_jacobian_determinants"]}, {"file": "io/vtk_io.cpp", "symbols": ["swage2vtk::init_vtk_grid", "swage2vtk::write_grid"]}]}
{"id": "C82", "title": "element_selector gives the element asked for", "statement": "choose_3Delem_type and choose_2Delem_type set the pointer, whatever it was, to an element of the requested type: dimension and number of nodes as documented for the type, with nodal shape functions.", "quantifier": "all element types and all histories of calls", "why_tests_cant": "every previous pointer value and sequence of choices; no test calls the selector", "anchors": [{"file": "elements/elements.cpp", "symbols": ["element_selector::choose_3Delem_type", "element_selector::choose_2Delem_type"]}, {"file": "elements/elements.h", "symbols": ["elem_types::elem_type"]}]}
{"id": "C83", "title": "complex-step derivatives of Lagrange interpolants", "statement": "The Complex instantiations of the Lagrange evaluators, provided for differentiation by the complex step, agree with the Real ones on real input; evaluated at x + ih in one coordinate they return, in the real part, the value and, in the imaginary part divided by h, the derivative returned by the Real evaluators, both up to a constant times h^2: eval_interp, eval_der_interp (giving the second derivative), and eval_basis and eval_approx of LagrangeElement.", "quantifier": "all vertex sets separated by the tolerance, all real points, coefficients, orders, coordinates and steps 0 < |h| <= 1", "why_tests_cant": "all points, including the vertices, and all steps; the tests use one step and random points", "anchors": [{"file": "elements/lagrange_polynomials.cpp", "symbols": ["find_coincident_vertex", "eval_interp", "eval_der_interp"]}, {"file": "elements/lagrange_element.cpp", "symbols": ["LagrangeElement<Complex>"]}, {"file": "common/common.h", "symbols": ["abs", "almost_equal"]}]}
{"id": "C84", "title": "complex-step derivatives of Legendre and Jacobi polynomials", "statement": "The Complex instantiations of the Legendre and Jacobi evaluators agree with the Real ones on real input, and the complex step through them returns the value and the derivative of the Real evaluators up to a constant times h^2: legendre::eval, legendre::eval_der of any order (giving the next derivative), jacobi::eval for all parameters, and eval_basis and eval_approx of LegendreElement in each coordinate.", "quantifier": "all degrees, derivative orders, parameters, points, coefficients and steps 0 < |h| <= 1", "why_tests_cant": "every degree and derivative order; the tests use one step", "anchors": [{"file": "elements/legendre_polynomials.cpp", "symbols": ["legendre::eval", "legendre::eval_der"]}, {"file": "elements/jacobi_polynomials.cpp", "symbols": ["jacobi::eval", "jacobi::eval_der"]}, {"file": "elements/legendre_element.cpp", "symbols": ["LegendreElement<Complex>"]}]}
{"id": "C85", "title": "eigensolver wrapper", "statement": "For every symmetric tridiagonal matrix, given by const arrays diag and subdiag, matar2lapack::eig_sym_tri returns the eigenvalues in ascending order and, row by row in the same order, orthonormal eigenvectors, and leaves its two inputs unchanged.", "quantifier": "all sizes and all entries, all contents of freshly allocated memory", "why_tests_cant": "all matrices; no test calls the routine", "anchors": [{"file": "common/matar_blas_lapack_interface.cpp", "symbols": ["matar2lapack::eig_sym_tri"]}]}
{"id": "C86", "title": "long runs of the Average example converge", "statement": "If every node of the mesh is connected through a chain of cells to a node held by the boundary condition, then the cycle loop of the Average example has exactly one nodal field it does not change, this field lies in [0, 10], and from every starting state the nodal and cell values approach it geometrically, with a rate that does not depend on the starting state. If some part of the mesh is not connected to a held node, the result there depends on the starting state.", "quantifier": "all valid meshes, all starting states, all numbers of cycles, all tolerances", "why_tests_cant": "a statement on the limit of infinitely many cycles, for meshes of every size and shape", "anchors": [{"file": "examples/average/test/average.cpp", "symbols": ["main", "smooth_element", "apply_boundary"]}]}
{"id": "C87", "title": "what the Average example converges to", "statement": "On a mesh whose rows of cells run from the plane x = 0 to the plane x = 2 (in particular on every such box of the mesh generator, with ci cells in x), the nodes of the refined mesh lie on 6 ci + 1 planes, and the field the cycle loop converges to is 10 on the first plane, 0 on the last and linear in the number of the plane in between; it is not linear in x. The result of the program with the settings of input lies between zero and this field.", "quantifier": "all boxes and rectilinear grids, all starting states, all contents of uninitialised memory", "why_tests_cant": "exact limit of an infinite iteration for meshes of every size, through generator, file, reader and refinement", "anchors": [{"file": "examples/average/test/average.cpp", "symbols": ["main", "smooth_element", "apply_boundary"]}, {"file": "swage/swage.cpp", "symbols": ["refine_mesh"]}, {"file": "mesh_tools/box_mesh_creator/meshbox.cpp", "symbols": ["main"]}]}
{"id": "C88", "title": "rounding errors of the Average example", "statement": "Run with rounded arithmetic (every operation rounded by a monotone rounding of relative error u that keeps numbers of a few bits, for instance IEEE double precision without overflow and underflow), the cycle loop of the Average example still keeps all values between 0 and 10 on boxes, and after k cycles its fields differ from the exact ones by at most M ((1+u)^((K+10)k) - 1), where M bounds the initial values and K the number of cells of a node; for the 500 cycles of the shipped settings in double precision this is below 1e-11.", "quantifier": "all roundings with the stated properties, all meshes and initial fields, any number of cycles", "why_tests_cant": "a test sees one rounding mode, one mesh and one number of cycles", "anchors": [{"file": "examples/average/test/average.cpp", "symbols": ["main", "smooth_element", "apply_boundary"]}]}
{"id": "C89", "title": "rounding errors of the LU solver", "statement": "With every operation rounded (relative error u), LU_decompos, whatever the matrix, stores non-zero pivots and factors whose product differs from the row-permuted input by at most ((1-u)^-n - 1)|L||U| per entry; LU_backsub returns the exact solution, LU_invert the exact columns, for a matrix within ((1-u)^-3n - 1)|L||U| of the input, and LU_determ the determinant of such a matrix up to relative error (1+u)^n - 1. The solver is backward stable with respect to the input itself, as implicit pivoting promises.", "quantifier": "all matrices, right-hand sides and sizes, all roundings of relative error u < 1", "why_tests_cant": "a test sees a few matrices and one rounding; an unstable pivot rule gives good answers on most of them", "anchors": [{"file": "slam/slam.cpp", "symbols": ["LU_decompos", "LU_backsub", "LU_invert", "LU_determ"]}]}
{"id": "C90", "title": "hash keys do not overflow", "statement": "refine_mesh, refine_high_order_mesh and build_patch_connectivity number the nodes and sides through int keys; on every valid mesh whose counts of Gauss points and sides fit an int, all conversions to int, products and sums on the way to the keys and the table size fit too, so the result is the one of exact integers.", "quantifier": "all meshes, orders up to 9, cell sizes and extents", "why_tests_cant": "overflow depends on the ratio of mesh extent to cell size (also to the absolute size), not on anything a small test mesh shows; it is undefined behaviour, so a passing run proves nothing", "anchors": [{"file": "swage/swage.cpp", "symbols": ["refine_mesh", "build_patch_connectivity"]}, {"file": "swage/refine_high_order_mesh.cpp", "symbols": ["refine_high_order_mesh"]}]}
{"id": "C91", "title": "every mesh owns its quadrature-point state", "statement": "After init_gauss_pts, init_gauss_patch_pts and init_gauss_cell_pts, directly or through a refinement, the mesh they are called for has a Jacobian matrix, an inverse and a determinant for each of its Gauss points, patch points and cells, and the counts num_gauss_pts, num_gauss_patch_pts, num_gauss_cell_pts report their numbers; what is written through an accessor is read back through the same accessor and no other, until the same mesh is set up again; operations on one mesh do not change another.", "quantifier": "all histories of setup, refinement and access over any number of mesh objects", "why_tests_cant": "interference shows only for particular sequences of calls on several mesh objects, and reads of unallocated or indeterminate memory may return plausible values", "anchors": [{"file": "swage/swage.cpp", "symbols": ["mesh_t::init_gauss_pts", "mesh_t::init_gauss_patch_pts", "mesh_t::init_gauss_cell_pts", "mesh_t::build_patch_connectivity", "mesh_t::gauss_in_elem", "mesh_t::num_gauss_cell_pts", "mesh_t::gauss_pt_jacobian"]}, {"file": "swage/swage.h", "symbols": ["mesh_t"]}]}
{"id": "C92", "title": "refined meshes in floating point", "statement": "Run in floating point, refine_mesh makes the mesh it makes in exact arithmetic: quadrature points that two neighbouring elements have in common are found to be the same node, points that are different stay different nodes, and positions differ from the exact ones by a few units of rounding error of the mesh coordinates.", "quantifier": "all meshes and orders, every rounding (monotone, relative error u, exact for short numbers, rounded numbers not rounded again), all contents of uninitialised memory", "why_tests_cant": "the result depends on single rounding errors at the boundaries of hash bins; a test mesh with short coordinates rounds nothing", "anchors": [{"file": "swage/swage.cpp", "symbols": ["refine_mesh", "lobatto_nodes_1D_tmp"]}]}
{"id": "C93", "title": "patch connectivity in floating-point arithmetic", "statement": "In double precision, as in exact arithmetic, two cell sides with the same four nodes get the same patch id, and on a rectilinear grid the patches are exactly the faces.", "quantifier": "all meshes, all coordinates, all rounding modes; for the grids all sizes below the limit of the precision", "why_tests_cant": "the two cells of a face add its vertices in their own order, and a truncation follows: whether the last bit matters depends on the coordinates", "anchors": [{"file": "swage/swage.cpp", "symbols": ["build_patch_connectivity"]}]}
{"id": "C94", "title": "Lagrange interpolation in floating-point arithmetic", "statement": "In floating-point arithmetic compute_barycentric_weights, lagrange::eval and LagrangeElement::eval_basis return the exact weights and basis functions up to a relative error of a few N u, and lagrange::eval_interp and LagrangeElement::eval_approx return the exact value of the interpolant of coefficients with such a relative error (backward stability), at the given point or, if it is closer to a vertex than twice the coincidence tolerance, at that vertex; at the vertices the results are exact.", "quantifier": "all orders, all vertices further apart than four tolerances, all points, all coefficients, all contents of the work array, all rounding modes", "why_tests_cant": "a rounding error bound quantifies over all vertices, points, data and roundings; a test sees one combination", "anchors": [{"file": "elements/lagrange_polynomials.cpp", "symbols": ["find_coincident_vertex", "compute_barycentric_weights", "eval", "eval_interp"]}, {"file": "elements/lagrange_element.cpp", "symbols": ["LagrangeElement::eval_basis", "LagrangeElement::eval_approx"]}, {"file": "common/common.h", "symbols": ["almost_equal"]}]}
{"id": "C95", "title": "first derivatives of the interpolant in floating-point arithmetic", "statement": "In floating-point arithmetic lagrange::eval_der_interp with n = 1 returns the derivative of the interpolating polynomial with an error that is a small multiple of the unit roundoff times the size of the data, at every point of the element; the derivative of constant data is zero up to such an error.", "quantifier": "all orders, all vertices further apart than four tolerances, all points, all data, all rounding modes", "why_tests_cant": "divided differences amplify the last bit by the inverse distance to the nearest vertex: whether a point suffers depends on its last bits", "anchors": [{"file": "elements/lagrange_polynomials.cpp", "symbols": ["eval_der_interp", "eval_der", "find_coincident_vertex"]}]}
{"id": "C96", "title": "cell volumes of get_vol_hex in floating-point arithmetic", "statement": "In floating-point arithmetic get_vol_hex gives every cell its volume up to a few rounding errors; the error does not depend on where the cell lies, so moving the mesh does not change the volumes and a cell of positive volume gets a positive one. cell_coords returns the mean of the nodes up to a few rounding errors.", "quantifier": "all meshes and all node coordinates, all rounding modes, all contents of uninitialised memory", "why_tests_cant": "the expression cancels products of three coordinates: how much is lost depends on position and last bits of the coordinates, not on the shape a test would choose", "anchors": [{"file": "geometry/geometry.cpp", "symbols": ["get_vol_hex"]}, {"file": "swage/swage.cpp", "symbols": ["mesh_t::cell_coords"]}]}
{"id": "C97", "title": "Jacobian matrices, determinants and inverses in floating-point arithmetic", "statement": "In floating-point arithmetic the Jacobian routines give, at every point, each matrix entry up to a relative error of a few units per vertex of the sum of moduli, a determinant within an explicit bound of the exact one (so positive whenever the exact one exceeds the bound), and an inverse within an explicit bound governed by the conditioning of the determinant.", "quantifier": "all meshes, node coordinates, reference gradients and points, all rounding modes, all contents of uninitialised memory", "why_tests_cant": "rounding errors depend on the last bits of every coordinate; no finite set of meshes covers them", "anchors": [{"file": "geometry/geometry.cpp", "symbols": ["get_gauss_pt_jacobian", "get_gauss_patch_pt_jacobian", "get_gauss_cell_pt_jacobian"]}, {"file": "elements/elements.cpp", "symbols": ["mat_inverse"]}]}
{"id": "C98", "title": "volumes of get_vol_jacobi in floating-point arithmetic", "statement": "In floating-point arithmetic the volume get_vol_jacobi stores for a cell is the sum of determinant times weight over its eight corners up to nine rounding errors, and for an element the sum over its n cells up to 9 + n; positive determinants give positive volumes.", "quantifier": "all meshes and orders, all determinant fields, all rounding modes, all contents of uninitialised memory", "why_tests_cant": "rounding errors depend on the last bits of all determinants and weights", "anchors": [{"file": "geometry/geometry.cpp", "symbols": ["get_vol_jacobi"]}]}
{"id": "C99", "title": "Legendre polynomials, basis functions and expansions in floating-point arithmetic", "statement": "In floating-point arithmetic, for points of the reference interval or cube, legendre::eval of order n is within 3n(n+1) times five rounding units of the exact value (which is at most one in modulus), eval_approx and the element's eval_basis and eval_approx are within explicit multiples of the sum of the moduli of the coefficients: the recurrence does not amplify errors beyond the square of the order.", "quantifier": "all orders, points of the reference cube, coefficients and rounding modes, any content of the work array", "why_tests_cant": "the error of a three-term recurrence depends on the last bits of the point and on the order; sampled points say nothing about the worst one", "anchors": [{"file": "elements/legendre_polynomials.cpp", "symbols": ["eval", "eval_approx"]}, {"file": "elements/legendre_element.cpp", "symbols": ["eval_basis", "eval_approx"]}]}
{"id": "C100", "title": "derivatives of Legendre polynomials and gradients of expansions in floating-point arithmetic", "statement": "In floating-point arithmetic, for points of the reference interval or cube and a library gamma function of small relative error, legendre::eval_der is within an explicit small multiple of the largest value of the exact k-th derivative (its value at one), and eval_der_approx, eval_grad_basis and eval_grad_approx are within explicit small multiples of the correspondingly weighted sums of moduli of coefficients.", "quantifier": "all orders, derivative orders k >= 1, points of the reference cube, coefficients, rounding modes and gamma functions with the stated error, any content of work and output arrays", "why_tests_cant": "the error depends on the last bits of the point, on the order and on the library's gamma function", "anchors": [{"file": "elements/legendre_polynomials.cpp", "symbols": ["eval_der", "eval_der_approx"]}, {"file": "elements/jacobi_polynomials.cpp", "symbols": ["eval", "eval_der"]}, {"file": "elements/jacobi_polynomials.h", "symbols": ["a", "b", "c"]}, {"file": "elements/legendre_element.cpp", "symbols": ["eval_grad_basis", "eval_grad_approx"]}]}
{"id": "C101", "title": "box meshes survive floating-point arithmetic and the file format", "statement": "A box mesh computed in floating-point arithmetic by the box mesh generator, written to its Ensight file with six significant digits and read back by read_mesh has every point close to its place and every cell of positive volume.", "quantifier": "all boxes (numbers of cells, lengths, shifts), all rounding modes of the arithmetic and of the decimal conversions, all contents of uninitialised memory", "why_tests_cant": "whether two neighbouring planes print the same six digits depends on all of shift, length and number of cells; a few sample boxes say nothing about others", "anchors": [{"file": "mesh_tools/box_mesh_creator/meshbox.cpp", "symbols": ["main", "Ensight"]}, {"file": "examples/average/test/average.cpp", "symbols": ["read_mesh"]}]}
{"id": "C102", "title": "A mesh file that is cut short is not mistaken for a mesh", "statement": "When the file of a box mesh is cut off at any character (the writer crashed or the disk filled up), read_mesh does not return a mesh that differs from the one that was written without reporting it. This fails: cut inside the header lines the reader never returns; cut anywhere later it returns normally, with as many points as the count says, no cells when the cell count is missing, uninitialised memory for the numbers that are missing, and a number that lost its last digits taken as a smaller number; without the last two characters the mesh has one wrong node in its last cell.", "quantifier": "every mesh with fewer than 10^9 points and cells, every rounding of printed numbers to nearest, every cut point of the file, every content of uninitialised memory", "why_tests_cant": "tests read complete files; the cut points are as many as the file has characters", "anchors": [{"file": "examples/average/test/average.cpp", "symbols": ["read_mesh"]}, {"file": "mesh_tools/box_mesh_creator/meshbox.cpp", "symbols": ["Ensight"]}]}
{"id": "C103", "title": "the recursive polynomial evaluators: orders, stack and cost", "statement": "legendre::eval(n, X) and jacobi::eval(n, alpha, beta, X) return for every order from -1 on and only for those (an order below -1 recurses until the stack or the range of int is exhausted); the recursion is n+1 frames deep, and the number of calls is 2 F(n+2) - 1 with the Fibonacci numbers F, so it grows exponentially with the order. eval_der recurses from order n-k, and an expansion with N coefficients (eval_approx) returns for every N up to the stack size and 2^31 and makes 2 F(N+3) - N - 4 calls.", "quantifier": "every int order, every number of stack frames, every point, all parameters, every number of coefficients", "why_tests_cant": "a test runs a few small orders; it cannot show that no order below -1 returns, nor the cost at orders it cannot afford to run", "anchors": [{"file": "elements/legendre_polynomials.cpp", "symbols": ["legendre::eval", "legendre::eval_approx"]}, {"file": "elements/jacobi_polynomials.cpp", "symbols": ["jacobi::eval", "jacobi::eval_der"]}]}
{"id": "C104", "title": "shape functions and positions of the fixed-order elements in floating-point arithmetic", "statement": "With a rounding after every operation, at every point of the reference element: each shape function and each partial computed by Quad4, Quad8, Quad12, Hex8, Hex20, Hex32 and Tess16 is within a small multiple of u of its exact value, and the shape functions sum to one up to rounding; physical_position (all classes but Hex32, see C27) is within rounding of the exact isoparametric map. For the linear classes the shape functions have small relative error at every representable point, are never negative in the element, vanish exactly on the opposite faces, and the position error is a small multiple of u times the largest vertex coordinate. For all classes without thirds in their vertex table the shape functions are exactly 0 and 1 at the vertices, and physical_position maps a vertex exactly to the vertex.", "quantifier": "every rounding with relative error u, every element class, every (representable) point of the reference element, all vertices, all contents of uninitialised arrays", "why_tests_cant": "tests evaluate at a few points with a tolerance; the bounds must hold at every point, for every rounding and for every element", "anchors": [{"file": "elements/elements.cpp", "symbols": ["Quad4::basis", "Hex8::basis", "Hex8::physical_position", "Hex20::basis", "Hex32::basis", "Tess16::basis"]}]}
{"id": "C105", "title": "graphics dumps of a process that dies", "statement": "Let the Average example or the box mesh generator write its graphics files into a directory without a case file of an earlier run. At whatever moment the process dies, a case file that a viewer accepts lists only time steps whose files, found by the name patterns of the case file, are all there and whole, with the data and the times of these dumps; the data files of finished dumps stay unchanged, and no file outside ensight/ changes. A run that is not disturbed ends with a case file that lists all dumps. (Not guaranteed, and refuted: an accepted case file exists at every moment after the first dump; the same with the case file of an earlier run still there.)", "quantifier": "all numbers of dumps, meshes, fields, disk contents and all points at which the process may die, with any part of the buffered output lost", "why_tests_cant": "a crash can happen between any two characters of any file; tests never interrupt the writers", "anchors": [{"file": "examples/average/test/average.cpp", "symbols": ["ensight"]}, {"file": "mesh_tools/box_mesh_creator/meshbox.cpp", "symbols": ["Ensight"]}]}
{"id": "C106", "title": "the .vtu file as text", "statement": "For every mesh, a viewer accepts the .vtu file written by vtk_writer of the Average example and reads from its text: the numbers of points and cells, every coordinate of every node within half a unit of the sixth decimal (exactly if it has at most six decimals), for every cell a polyhedron with its eight nodes in order and the six sides of the cell, and the number of the cell as cell data for cells up to 2^24. A file that is cut anywhere is not accepted, and a process that dies at any moment leaves all other files as they were and in place of the file the one from before, the whole new one, or one that is not accepted. (Not guaranteed, and refuted: different nodes stay different; the cell data tell more than 2^24 + 2 cells apart; an earlier file of the same number survives.)", "quantifier": "all meshes, node numberings, coordinates, dump numbers, disk contents and all points at which the process may die", "why_tests_cant": "tests look at one picture; the text depends on every digit of every number, and a cut can fall anywhere", "anchors": [{"file": "examples/average/test/average.cpp", "symbols": ["vtk_writer"]}]}
{"id": "C107", "title": "HexN and QuadN in rounded arithmetic", "statement": "In floating point arithmetic, for elements of every order and every distribution of the vertices: the values of HexN::basis and of the basis of QuadN::basis_partials have a small relative error at every point, and are exactly 0 and 1 at the vertices; the partial derivatives have an error that is small compared with the terms of the product rule, and for the derivative of a 1-D function at another vertex a small relative error; the basis adds up to one and the partials add up to zero up to small multiples of the Lebesgue functions; QuadN::physical_position, started from a cleared array, returns the interpolated position up to a small multiple of the terms added, and the exact position at the vertices. (Not guaranteed, and refuted: the values add up to one exactly; derivatives have a small relative error everywhere.)", "quantifier": "all orders, vertex positions, evaluation points, previous array contents and all roundings with relative error u, among them IEEE double precision", "why_tests_cant": "tests compare a few values with a tolerance; the error bounds hold for all points and orders, and exactness at the vertices has to hold for every set of vertex positions", "anchors": [{"file": "elements/elements.cpp", "symbols": ["HexN::basis", "HexN::partial_xi_basis", "HexN::partial_eta_basis", "HexN::partial_mu_basis", "HexN::lagrange_basis_1D", "HexN::lagrange_derivative_1D", "QuadN::lagrange_1D", "QuadN::basis_partials", "QuadN::physical_position"]}]}
{"id": "C108", "title": "The Average example in real double precision: no overflow, harmless underflow", "statement": "The smoothing run of the Average example in IEEE 754 double precision, with its limited exponent range, never overflows when the initial values are of moderate size; every field value stays between the bounds 0 and 10 on a box mesh and within 1e-11 of the exact result after the 500 cycles, however many values underflow far from the hot boundary.", "quantifier": "all meshes, all initial fields, any number of cycles; all boxes of the mesh generator for the whole program", "why_tests_cant": "the property ranges over all meshes and fields and over values at the very end of the exponent range, which tests do not reach", "anchors": [{"file": "examples/average/test/average.cpp", "symbols": ["smooth_element", "apply_boundary", "main"]}]}
{"id": "C109", "title": "Hexahedral volumes in real double precision: when they neither overflow nor vanish", "statement": "The volume calculation for hexahedral cells in IEEE 754 double precision, with its limited exponent range: if the coordinates of the nodes of a cell are at most L <= 2^338 in modulus, its stored volume is finite and differs from the volume of the trilinear hexahedron by at most L^3/2^45 + (1+L)^2/2^1067, so that a cell of larger volume gets a positive one, whatever the uninitialised scratch arrays contain. The restriction is needed: a cube of volume 2^1023 overflows, and a needle of volume 2^-900 gets the volume zero.", "quantifier": "all meshes, all cells, all coordinates up to 2^338, all contents of uninitialised memory", "why_tests_cant": "coordinates range over all doubles up to 10^101; the failure cases are at magnitudes tests never use", "anchors": [{"file": "geometry/geometry.cpp", "symbols": ["get_vol_hex"]}, {"file": "swage/swage.cpp", "symbols": ["cell_coords"]}]}
{"id": "C110", "title": "Shape functions, partials and physical positions in real double precision", "statement": "In IEEE 754 double precision, with its limited exponent range: at every point of the reference element every shape function and every partial derivative of every element class is finite and within 2^-48 times a small constant of the class of the exact value. If the vertex coordinates are at most 2^1015 in modulus, the computed physical position is finite and within 2^-47 times that constant times the sum of the moduli of the vertex coordinates, plus 2^-1060, of the exact isoparametric map. For the classes with representable reference vertices the shape functions are exactly 1 and 0 there and the position is exactly the vertex, whatever the size of the coordinates. The bound on the coordinates is needed: a 20-node hexahedron whose vertices are all at 2^1023 has its centre computed as an infinity or NaN.", "quantifier": "all element classes, all points of the reference element, all shape functions, all vertex coordinates up to 2^1015, all contents of uninitialised memory", "why_tests_cant": "the points and coordinates range over all doubles, including denormals; overflow in a partial sum needs magnitudes tests never use", "anchors": [{"file": "elements/elements.cpp", "symbols": ["Quad4::basis", "Quad8::basis", "Quad12::basis", "Hex8::basis", "Hex20::basis", "Hex32::basis", "Tess16::basis", "physical_position", "partial_xi_basis", "partial_eta_basis", "partial_mu_basis", "partial_tau_basis"]}]}
{"id": "C111", "title": "Complex-step derivatives of Legendre polynomials in floating-point arithmetic", "statement": "Differentiating through the Complex instantiations of the Legendre routines in rounded arithmetic, for every order and every step h: at a point of [-1, 1] the imaginary part of eval, eval_approx or LegendreElement::eval_basis divided by h differs from the exact derivative by the truncation error of order h^2 plus rounding errors that do not grow as h tends to zero. In double precision, up to order 1000 and for every non-zero step up to 2^-60, the error is at most n^2 (n+1)^2 / 2^47 for a polynomial of order n, N^2 (N-1)^2 / 2^47 times the sum of the moduli of the coefficients for an expansion, and N^2 (N-1)^2 / 2^46 for a basis function of a hexahedron.", "quantifier": "all orders, all points of the reference interval or cube, all steps, all coefficients, all directions, all rounding modes", "why_tests_cant": "the derivative tests compare one random point with one step; that no step is too small for the accuracy is a statement about all steps", "anchors": [{"file": "elements/legendre_polynomials.cpp", "symbols": ["eval", "eval_approx"]}, {"file": "elements/legendre_element.cpp", "symbols": ["eval_basis"]}, {"file": "common/common.h", "symbols": ["Complex", "imag"]}]}
{"id": "C112", "title": "The total volume of a mesh is fixed by its boundary patches", "statement": "On a mesh whose cells are numbered consistently, the volumes that get_vol_hex gives to the cells add up to a third of the flux of the position out of the boundary patches, computed from bdy_patches, node_in_patch and sides_in_patch alone; so moving nodes that are on no boundary patch, to any place whatsoever (cells may become inverted), does not change the sum. On meshes made of the cells of a rectilinear grid, and on their refinements of any order up to 5, the sum is the volume of the original grid cells wherever the inner nodes have been moved", "quantifier": "all connectivities numbered consistently (all grid meshes and all their refinements among them), all node positions, all numbers of cells", "why_tests_cant": "volumes of a few smooth meshes are compared with known values; that no volume is lost or counted twice at inner sides is a statement about all connectivities and all positions of the nodes", "anchors": [{"file": "geometry/geometry.cpp", "symbols": ["get_vol_hex"]}, {"file": "swage/swage.cpp", "symbols": ["build_patch_connectivity", "build_bdy_patches", "refine_mesh"]}, {"file": "swage/swage.h", "symbols": ["node_rlid_in_patch_in_cell_", "cell_side_unit_normals_"]}]}
{"id": "C113", "title": "Several threads evaluate elements", "statement": "The evaluation methods of LagrangeElement and LegendreElement (eval_basis, eval_grad_basis, eval_approx, eval_grad_approx) may be called by any number of threads at the same time: whatever the order in which their accesses to the working storage of the elements follow each other, every call returns the basis function, gradient or expansion asked for, no thread waits for another and no two threads are ever about to access the same entry. In one thread the calls may be made in any order and any number of times: the result of a call does not depend on earlier ones", "quantifier": "all programs of any number of threads, each making any finite sequence of calls on one element of either class and of any order; all interleavings of their accesses; all coefficients and points the single calls are correct for; all initial contents of the working storage", "why_tests_cant": "a race shows only in rare interleavings, and the interleavings of even two calls cannot be enumerated; tests call the methods in one thread in a fixed order", "anchors": [{"file": "elements/lagrange_element.h", "symbols": ["ijk", "C"]}, {"file": "elements/lagrange_element.cpp", "symbols": ["eval_basis", "eval_grad_basis", "eval_approx", "eval_grad_approx"]}, {"file": "elements/legendre_element.cpp", "symbols": ["eval_basis", "eval_grad_basis", "eval_approx", "eval_grad_approx"]}, {"file": "common/common.cpp", "symbols": ["base_10_to_mixed_radix"]}]}
{"id": "C114", "title": "Memory of objects and of the matrix wrappers", "statement": "In a program that constructs and destroys Lagrange and Legendre elements and the state objects of the Average example (node_t, mat_pt_t), initialises these with init_node_state and init_mat_pt_state, constructs some objects as copies of others and calls the matrix wrappers matvec, matmul, invert and eig_sym_tri and the VTK routines init_swage_mesh and init_vtk_grid, no block of memory is given back twice, and the memory in use at any time is what the existing objects need: an object that has been destroyed and a routine that has returned hold no memory", "quantifier": "all finite sequences of these operations, all orders of elements and sizes of meshes and matrices", "why_tests_cant": "memory leaks and double deletions depend on the whole history of a program; unit tests end before a leak is noticed", "anchors": [{"file": "elements/lagrange_element.cpp", "symbols": ["LagrangeElement", "~LagrangeElement"]}, {"file": "elements/legendre_element.cpp", "symbols": ["LegendreElement", "~LegendreElement"]}, {"file": "examples/average/include/state.h", "symbols": ["node_t", "mat_pt_t", "init_node_state", "init_mat_pt_state"]}, {"file": "common/matar_blas_lapack_interface.cpp", "symbols": ["matvec", "matmul", "invert", "eig_sym_tri"]}, {"file": "io/vtk_io.cpp", "symbols": ["init_swage_mesh", "init_vtk_grid"]}]}
{"id": "C115", "title": "The volume of a curved element is fixed by its surface nodes", "statement": "Take two elements of the same order between 1 and 9, of the same mesh or of two meshes, whose surface vertices (the vertices with a lattice index that is 0 or p) are in the same places. Their surfaces coincide point by point, their volumes (the integrals of the Jacobian determinants of their maps) are equal, wherever the interior vertices are, even if those make the map fold over; if both maps are injective and nowhere inverted the elements have the same Lebesgue measure; and the volumes computed by get_gauss_pt_jacobian followed by get_vol_jacobi differ by no more than the accuracy of the tabulated weights", "quantifier": "all orders 1 to 9, all pairs of meshes and of elements, all node positions that agree on the surface vertices", "why_tests_cant": "real-valued positions of all interior nodes; a change of quadrature, of the vertex map or of one entry of the Jacobian shows only for particular curved elements", "anchors": [{"file": "geometry/geometry.cpp", "symbols": ["get_gauss_pt_jacobian", "get_vol_jacobi"]}, {"file": "elements/elements.cpp", "symbols": ["ref_element::init"]}]}
{"id": "C116", "title": "The total volume of a mesh of curved elements is fixed by its outer sides", "statement": "Take a mesh of elements of one order between 1 and 9 in which the upper side of an element in a lattice direction may be, node by node, the lower side of another element in the same direction (as in box meshes and meshes refined from them), and call the other sides outer sides. Move its nodes to any places whatsoever, except the nodes of outer sides, which stay. The total volume of the curved elements (the sum of the integrals of the Jacobian determinants of their maps) does not change, and the total of the volumes computed by get_gauss_pt_jacobian and get_vol_jacobi changes by no more than the accuracy of the tabulated weights", "quantifier": "all orders 1 to 9, all meshes, all ways in which sides are glued (also periodically), all node positions and all moves of inner nodes", "why_tests_cant": "real-valued positions of all nodes of meshes of any size; conservation of the total volume is a sum of cancellations between neighbours", "anchors": [{"file": "geometry/geometry.cpp", "symbols": ["get_gauss_pt_jacobian", "get_vol_jacobi"]}, {"file": "elements/elements.cpp", "symbols": ["ref_element::init"]}]}
{"id": "C117", "title": "The total volume of a mesh of curved elements turned against each other is fixed by its outer sides", "statement": "Take a mesh of elements of one order between 1 and 9 in which sides of elements may be glued in pairs: the two sides have the same nodes under one of the eight symmetries of the square lattice (any swap and mirror images of the two lattice directions), whichever sides of the elements they are, with the elements on different sides of the common side. Call the sides that are glued to no other outer sides. Move the nodes to any places whatsoever, except the nodes of outer sides, which stay. The total volume of the curved elements does not change, and the total of the volumes computed by get_gauss_pt_jacobian and get_vol_jacobi changes by no more than the accuracy of the tabulated weights", "quantifier": "all orders 1 to 9, all meshes with conforming sides (unstructured, with elements turned in any way), all node positions and all moves of inner nodes", "why_tests_cant": "real-valued positions of all nodes of meshes of any size and any topology; conservation of the total volume is a sum of cancellations between neighbours in 36 relative positions times 8 symmetries", "anchors": [{"file": "geometry/geometry.cpp", "symbols": ["get_gauss_pt_jacobian", "get_vol_jacobi"]}, {"file": "elements/elements.cpp", "symbols": ["ref_element::init"]}]}
{"id": "C118", "title": "The total volume of a mesh of curved elements depends on its outer sides only", "statement": "Take two meshes of elements of one order between 1 and 9, each with its own number of elements inside and its own way in which they are glued together side to side, turned in any way. If the sides that are glued to no other are the same in both, that is, correspond one to one with their nodes in the same places under one of the eight symmetries of the square lattice (and the elements on the same side of them), then the total volumes of the curved elements are equal, and the totals of the volumes computed by get_gauss_pt_jacobian and get_vol_jacobi differ by no more than the accuracy of the tabulated weights: remeshing the inside of a body does not change its volume", "quantifier": "all orders 1 to 9, all pairs of meshes with conforming sides, all node positions that agree on the outer sides", "why_tests_cant": "two meshes of any size and topology and real-valued positions of all their nodes", "anchors": [{"file": "geometry/geometry.cpp", "symbols": ["get_gauss_pt_jacobian", "get_vol_jacobi"]}, {"file": "elements/elements.cpp", "symbols": ["ref_element::init"]}]}
{"id": "C119", "title": "The total volume of a mesh of curved elements depends on its outer surface only, also across orders", "statement": "Take two meshes of elements of order p and of order p', both between 1 and 9 and not necessarily equal, each with its own number of elements inside and its own way in which they are glued together side to side. If the sides that are glued to no other correspond one to one, and on corresponding sides the maps from the reference cube agree under one of the eight symmetries of the square (with the elements on the same side of them), then the total volumes of the curved elements are equal, and the totals of the volumes computed by get_gauss_pt_jacobian and get_vol_jacobi differ by no more than the accuracy of the tabulated weights: raising the order or remeshing the inside of a body without changing its surface does not change its volume", "quantifier": "all pairs of orders 1 to 9, all pairs of meshes with conforming sides, all polynomial maps that agree on the outer sides", "why_tests_cant": "two meshes of any size, topology and order, and real-valued positions of all their nodes", "anchors": [{"file": "geometry/geometry.cpp", "symbols": ["get_gauss_pt_jacobian", "get_vol_jacobi"]}, {"file": "elements/elements.cpp", "symbols": ["ref_element::init"]}]}
