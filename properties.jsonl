{"id": "C01", "title": "Interpolating x-y data gives the piecewise-linear curve through the data", "statement": "For every non-decreasing abscissa list x (steps, i.e. repeated abscissae, allowed) and ordinates y of the same length >= 2 with x[0] < x[-1], interp_x_y(x, y, t) is the value at t of the polyline through the points: linear inside each segment, the first/last ordinate outside the range; at a step the default picks the value just before the step and choose_max=True the value just after.", "quantifier": "every pair of equal-length lists with non-decreasing x, every query point t, both values of choose_max", "why_tests_cant": "The domain is all finite data sets with arbitrarily placed repeated abscissae and all query points; boundary coincidences (query on node, on a step, outside) combine unboundedly.", "anchors": ["geotecha/piecewise/piecewise_linear_1d.py:interp_x_y", "geotecha/piecewise/piecewise_linear_1d.py:segment_containing_xi"]}
{"id": "C02", "title": "Interpolation hits the data and never leaves its range", "statement": "Every value interp_x_y returns lies between the smallest and largest ordinate, for any data (not only monotone x); and on strictly increasing x it returns y[i] exactly at t = x[i].", "quantifier": "all data lists, all query points, both choose_max settings", "why_tests_cant": "Convexity over all data sets and all query points is a universal statement.", "anchors": ["geotecha/piecewise/piecewise_linear_1d.py:interp_x_y"]}
{"id": "C03", "title": "Segment-form and point-form interpolation agree", "statement": "interp_x1_x2_y1_y2 on the segments produced from x-y data returns the same value as interp_x_y on the x-y data, for all non-decreasing x with a non-zero extent and all query points within the range of the data. (Beyond the range the two forms differ exactly when the data start or end with a vertical step.) Segments whose four lists differ in length, or that are further apart than the tolerance of np.allclose, are refused with ValueError.", "quantifier": "all non-decreasing data (with steps), all query points within the range, both choose_max settings", "why_tests_cant": "Two independent implementations must agree on every data set including any pattern of steps.", "anchors": ["geotecha/piecewise/piecewise_linear_1d.py:interp_x1_x2_y1_y2", "geotecha/piecewise/piecewise_linear_1d.py:interp_x_y", "geotecha/piecewise/piecewise_linear_1d.py:convert_x_y_to_x1_x2_y1_y2"]}
{"id": "C04", "title": "Segment form to point form and back is the identity", "statement": "Converting any contiguous x1/x2/y1/y2 data (x1[1:] == x2[:-1], no zero-width segment) to x-y data and back returns the original four lists; lists of differing length are rejected with ValueError.", "quantifier": "all non-empty contiguous segment data with arbitrary jumps between segments", "why_tests_cant": "Round trip over unbounded lists and any pattern of jumps.", "anchors": ["geotecha/piecewise/piecewise_linear_1d.py:convert_x1_x2_y1_y2_to_x_y", "geotecha/piecewise/piecewise_linear_1d.py:convert_x_y_to_x1_x2_y1_y2"]}
{"id": "C05", "title": "Integral of x-y data is the exact integral of the polyline", "statement": "For non-decreasing x and x[0] <= a < b <= x[-1], integrate_x_y_between_xi_xj(x, y, a, b) is the Lebesgue/Riemann integral from a to b of the polyline through the data; hence it is additive over adjacent intervals.", "quantifier": "all non-decreasing data with any steps, all limits a<b in range", "why_tests_cant": "Segment selection at limits that coincide with nodes or steps must be right for every data set.", "anchors": ["geotecha/piecewise/piecewise_linear_1d.py:integrate_x_y_between_xi_xj", "geotecha/piecewise/piecewise_linear_1d.py:segments_between_xi_and_xj"]}
{"id": "C06", "title": "Integral over an empty interval is zero", "statement": "integrate_x_y_between_xi_xj(x, y, a, a) is 0 for every a in the range of the data.", "quantifier": "all increasing data and all a", "why_tests_cant": "Only fails (or holds) on the coincidence of the limit with an interior node; universal claim.", "anchors": ["geotecha/piecewise/piecewise_linear_1d.py:integrate_x_y_between_xi_xj", "geotecha/piecewise/piecewise_linear_1d.py:segments_between_xi_and_xj"]}
{"id": "C07", "title": "Integral and average of segment data are exact", "statement": "For contiguous increasing segments and limits a<b in range, integrate_x1_x2_y1_y2_between_xi_xj is the exact integral of the (possibly discontinuous) segment data, and avg_x1_x2_y1_y2_between_xi_xj times (b-a) equals it.", "quantifier": "all contiguous segment data, all limits", "why_tests_cant": "Unbounded data and limits.", "anchors": ["geotecha/piecewise/piecewise_linear_1d.py:integrate_x1_x2_y1_y2_between_xi_xj", "geotecha/piecewise/piecewise_linear_1d.py:avg_x1_x2_y1_y2_between_xi_xj"]}
{"id": "C08", "title": "Integral of a product of two segment functions is exact", "statement": "For two contiguous segment functions on a common grid and limits a<b in range, integrate_x1a_x2a_y1a_y2a_multiply_x1b_x2b_y1b_y2b_between is the exact integral of the product. The function that also multiplies by a third polyline at a given abscissa returns that product.", "quantifier": "all pairs of segment data on any common grid, all limits", "why_tests_cant": "Closed-form cubic expressions in four separate branches must each be right for all coefficients.", "anchors": ["geotecha/piecewise/piecewise_linear_1d.py:integrate_x1a_x2a_y1a_y2a_multiply_x1b_x2b_y1b_y2b_between"]}
{"id": "C09", "title": "Every load segment is classified exactly once", "statement": "start_index_of_ramps / constants / steps: each segment with x[i] != x[i+1] or y[i] != y[i+1] is reported by exactly one of the three functions, ramps are those where both change, constants those where only x changes, steps those where only y changes, and nothing else is reported.", "quantifier": "all pairs of equal-length lists", "why_tests_cant": "Any mixture of segment kinds, including repeated identical points, at any position.", "anchors": ["geotecha/piecewise/piecewise_linear_1d.py:start_index_of_ramps", "geotecha/piecewise/piecewise_linear_1d.py:start_index_of_constants", "geotecha/piecewise/piecewise_linear_1d.py:start_index_of_steps"]}
{"id": "C10", "title": "remove_superfluous_from_x_y keeps the shape", "statement": "The result is a subsequence of the input points, containing the first and last point, and every dropped point is within atol of the straight line through the two kept points that surround it.", "quantifier": "all point lists, all atol >= 0", "why_tests_cant": "Greedy algorithm over unbounded lists; correctness needs a loop invariant.", "anchors": ["geotecha/piecewise/piecewise_linear_1d.py:remove_superfluous_from_x_y"]}
{"id": "C11", "title": "Reading a PolyLine never changes what it represents", "statement": "Whatever the order and number of reads of x, y, xy, x1, x2, y1, y2 of a PolyLine, each read returns the same value as on a fresh PolyLine, and multiplying or dividing a PolyLine by a number leaves the operand unchanged.", "quantifier": "all PolyLines, all finite sequences of operations", "why_tests_cant": "Caches are filled lazily; property is over all operation histories.", "anchors": ["geotecha/piecewise/piecewise_linear_1d.py:PolyLine"]}
{"id": "C12", "title": "Adding a number to a PolyLine leaves the operand unchanged", "statement": "After q = p + c (or p - c, c - p) the PolyLine p still reads as before. The new PolyLine q has the ordinates y + c (y - c, c - y) at the same abscissae.", "quantifier": "all PolyLines p and numbers c", "why_tests_cant": "Aliasing between cached views and the result; statement over all states.", "anchors": ["geotecha/piecewise/piecewise_linear_1d.py:PolyLine._add_substract"]}
{"id": "C13", "title": "Common-x conversion gives the same grid for every line", "statement": "polyline_make_x_common, whenever it succeeds, returns lines that all share the same set of abscissae; if abscissae of the inputs that differ do so by more than the merging tolerance and steps exceed that tolerance, it does succeed and each returned line is the same curve as the original one.", "quantifier": "all tuples of >= 2 monotone PolyLines", "why_tests_cant": "Merging with tolerance over arbitrarily many lines; termination and completeness are universal.", "anchors": ["geotecha/piecewise/piecewise_linear_1d.py:polyline_make_x_common"]}
{"id": "C14", "title": "Sum of two PolyLines is the pointwise sum", "statement": "(p + q) takes at every abscissa of p or q the value p(x) + q(x), and (p - q) the difference.", "quantifier": "all pairs of monotone PolyLines", "why_tests_cant": "Merge loop over arbitrary data.", "anchors": ["geotecha/piecewise/piecewise_linear_1d.py:PolyLine._add_substract"]}
{"id": "C15", "title": "Subdividing keeps the original points and the curve", "statement": "subdivide_x_y_into_segments (just_before None, no log) returns x and y of equal length, containing all original points in order, with every inserted point on the original polyline and at least min_segments pieces between consecutive originals.", "quantifier": "all data, all dx > 0 and min_segments >= 1", "why_tests_cant": "Unbounded data sizes and segment counts.", "anchors": ["geotecha/piecewise/piecewise_linear_1d.py:subdivide_x_y_into_segments", "geotecha/piecewise/piecewise_linear_1d.py:subdivide_x_into_segments"]}
{"id": "C16", "title": "Element subdivision fills the domain exactly", "statement": "subdivide_into_elements(n, h, p, symmetry) returns n element sizes that sum to h; consecutive sizes have ratio p (non-symmetric), or the list is symmetric about the centre with ratio p towards the centre; p <= 0 or n <= 1 raises ValueError.", "quantifier": "all n >= 2, h, p > 0", "why_tests_cant": "All n; geometric sums.", "anchors": ["geotecha/piecewise/piecewise_linear_1d.py:subdivide_into_elements"]}
{"id": "C17", "title": "force_non_decreasing only reverses", "statement": "force_non_decreasing returns data with non-decreasing x consisting of the same (x, y) points, reversed or not, and raises ValueError exactly when x is neither non-decreasing nor non-increasing.", "quantifier": "all data", "why_tests_cant": "Universal over lists.", "anchors": ["geotecha/piecewise/piecewise_linear_1d.py:force_non_decreasing"]}
{"id": "C18", "title": "force_strictly_increasing yields strictly increasing abscissae close to the input", "statement": "For monotone x, force_strictly_increasing returns strictly increasing x of the same length, each moved by at most (number of steps)*eps; non-monotone x raises ValueError.", "quantifier": "all monotone data, eps > 0 small relative to the gaps", "why_tests_cant": "Any number and position of steps.", "anchors": ["geotecha/piecewise/piecewise_linear_1d.py:force_strictly_increasing"]}
{"id": "C19", "title": "Monotonicity predicates mean what they say", "statement": "strictly_increasing, strictly_decreasing, non_increasing, non_decreasing, has_steps are true exactly when the whole list is ordered (pairwise, not only adjacent) in the corresponding sense / has two equal adjacent entries.", "quantifier": "all lists", "why_tests_cant": "Adjacent checks must imply global order for any length.", "anchors": ["geotecha/piecewise/piecewise_linear_1d.py:strictly_increasing", "geotecha/piecewise/piecewise_linear_1d.py:non_decreasing", "geotecha/piecewise/piecewise_linear_1d.py:non_increasing", "geotecha/piecewise/piecewise_linear_1d.py:strictly_decreasing", "geotecha/piecewise/piecewise_linear_1d.py:has_steps"]}
{"id": "C20", "title": "is_initially_increasing reports the direction of the first change", "statement": "is_initially_increasing(x) is True iff the first non-zero difference in x is positive.", "quantifier": "all lists with at least one change", "why_tests_cant": "Any number of leading repeats.", "anchors": ["geotecha/piecewise/piecewise_linear_1d.py:is_initially_increasing"]}
{"id": "C21", "title": "Monotone parts cover the data and each part is monotone", "statement": "non_increasing_and_non_decreasing_parts returns consecutive index runs which concatenate to 0..n-2, each of whose segments all rise (or stay) or all fall (or stay).", "quantifier": "all lists with at least one change", "why_tests_cant": "Unbounded alternation of directions.", "anchors": ["geotecha/piecewise/piecewise_linear_1d.py:non_increasing_and_non_decreasing_parts"]}
{"id": "C22", "title": "Shanks transform is exact for geometric sequences", "statement": "shanks of partial sums A + a*q^k (a != 0, q != 0, q != 1) returns exactly A after one step, and a table of n terms has the documented shape.", "quantifier": "all A, a, q and all sequence lengths", "why_tests_cant": "Algebraic identity over all inputs.", "anchors": ["geotecha/mathematics/quadrature.py:shanks", "geotecha/mathematics/quadrature.py:shanks_table"]}
{"id": "C23", "title": "Gauss-Legendre tables integrate polynomials", "statement": "For each supported n the rule returned by gauss_legendre_abscissae_and_weights integrates every polynomial of degree <= 2n-1 over [-1,1] with an error at most a tiny multiple of the sum of absolute coefficients; unsupported n raises ValueError.", "quantifier": "all supported n (table), all polynomials of degree <= 2n-1 with any coefficients", "why_tests_cant": "All polynomials; a single wrong digit in the tables would be invisible for most integrands.", "anchors": ["geotecha/mathematics/quadrature.py:gauss_legendre_abscissae_and_weights"]}
{"id": "C24", "title": "gl_quad maps the rule to [a,b] and is linear", "statement": "gl_quad(f, a, b, n) is the affine image of the rule on [-1,1]: it is linear in f, exact on constants up to the weight sum, and changes sign when a and b are swapped for symmetric rules.", "quantifier": "all integrands, all a, b, all tables", "why_tests_cant": "Universal over functions.", "anchors": ["geotecha/mathematics/quadrature.py:gl_quad"]}
{"id": "C25", "title": "Polygon area is the area", "statement": "polygon_area of a planar polygon does not change under translation of all vertices nor under the choice of starting vertex, and its magnitude is half the length of the vector area.", "quantifier": "all vertex lists (any length)", "why_tests_cant": "All polygons.", "anchors": ["geotecha/mathematics/geometry.py:polygon_area", "geotecha/mathematics/geometry.py:eqn_of_plane"]}
{"id": "C26", "title": "Polygon area is non-negative", "statement": "polygon_area returns a non-negative number for every planar polygon, whichever way it is oriented in space.", "quantifier": "all non-degenerate planar polygons in every orientation", "why_tests_cant": "Orientation-dependent branch (largest normal component).", "anchors": ["geotecha/mathematics/geometry.py:polygon_area"]}
{"id": "C27", "title": "dim1sin_af_linear is the Galerkin mass matrix", "statement": "Every entry (i,j) of dim1sin_af_linear(m, at, ab, zt, zb) equals the sum over layers of the integral of a(z) sin(m_i z) sin(m_j z) with a linear in each layer, for all distinct positive m and any number of layers; the matrix is symmetric.", "quantifier": "all eigenvalue lists with distinct nonzero m (|m_i| != |m_j|), all layered linear a", "why_tests_cant": "Machine-generated closed forms with dozens of terms; correct for all parameters or not.", "anchors": ["geotecha/speccon/integrals.py:dim1sin_af_linear"]}
{"id": "C28", "title": "dim1sin_D_aDf_linear is the Galerkin stiffness matrix", "statement": "Every entry of dim1sin_D_aDf_linear equals minus m_i m_j times the sum over layers of the integral of a(z) cos(m_i z) cos(m_j z).", "quantifier": "all distinct nonzero m, all layered linear a", "why_tests_cant": "Machine-generated closed forms.", "anchors": ["geotecha/speccon/integrals.py:dim1sin_D_aDf_linear"]}
{"id": "C29", "title": "dim1sin_ab_linear and dim1sin_a_linear_between are exact integrals", "statement": "dim1sin_ab_linear entry i is the integral of a(z) b(z) sin(m_i z) over all layers.", "quantifier": "all nonzero m, all layered linear a, b", "why_tests_cant": "Machine-generated closed forms.", "anchors": ["geotecha/speccon/integrals.py:dim1sin_ab_linear"]}
{"id": "C30", "title": "EDload_linear is the convolution of the load rate with the decay", "statement": "For a piecewise-linear load with ramps, constants and steps, EDload_linear at time t and eigenvalue lam is the sum over steps up to t of jump*exp(-dT lam (t-t_step)) plus the integral from 0 to t of load rate * exp(-dT lam (t-tau)).", "quantifier": "all load histories with non-decreasing times, all t, all eigenvalues != 0, dT != 0", "why_tests_cant": "Any number and order of ramps/steps and every relation of t to the nodes.", "anchors": ["geotecha/speccon/integrals.py:EDload_linear", "geotecha/piecewise/piecewise_linear_1d.py:segment_containing_also_segments_less_than_xi"]}
{"id": "C31", "title": "Eload_linear is the convolution of the load with the decay", "statement": "Eload_linear at time t and eigenvalue lam is the integral from the first load time to t of load(tau) exp(-dT lam (t-tau)) d tau.", "quantifier": "all load histories with non-decreasing times, all t within the load history, all eigenvalues", "why_tests_cant": "as above", "anchors": ["geotecha/speccon/integrals.py:Eload_linear"]}
{"id": "C32", "title": "Basis functions satisfy the drainage boundary conditions", "statement": "sin(m_from_sin_mx(i, boundary) z) vanishes at z=0; vanishes at z=1 when boundary = 0; has zero slope at z=1 when boundary = 1; different indices give different positive values; other boundary values raise ValueError.", "quantifier": "all indices i >= 0", "why_tests_cant": "All indices.", "anchors": ["geotecha/speccon/integrals.py:m_from_sin_mx"]}
{"id": "C33", "title": "Void ratio - permeability models invert each other", "statement": "CkPermeabilityModel.e_from_k and k_from_e are inverse for Ck != 0, ka > 0; e increases with k when Ck > 0.", "quantifier": "all parameter values and arguments", "why_tests_cant": "Real-number identities over a continuum.", "anchors": ["geotecha/constitutive_models/void_ratio_permeability.py:CkPermeabilityModel"]}
{"id": "C34", "title": "Darcy model: velocity and gradient are inverse and the slope is the derivative", "statement": "DarcyFlowModel.v_from_i and i_from_v are inverse for k != 0 and dv_di is the derivative of v_from_i.", "quantifier": "all k, all i of either sign", "why_tests_cant": "All arguments including negative gradients.", "anchors": ["geotecha/constitutive_models/velocity_hydraulic_gradient.py:DarcyFlowModel"]}
{"id": "C35", "title": "Hansbo non-Darcian model is consistent, odd, continuous, increasing and invertible", "statement": "For every admissible parameter pair given to HansboNonDarcianFlowModel the remaining parameters satisfy klinear = kstar*n*iL^(n-1) and iL = i0*n/(n-1); v_from_i is odd, continuous at the limiting gradient, increasing, and i_from_v inverts it.", "quantifier": "all admissible parameters, all i", "why_tests_cant": "Continuum of parameters.", "anchors": ["geotecha/constitutive_models/velocity_hydraulic_gradient.py:HansboNonDarcianFlowModel"]}
{"id": "C36", "title": "Cc/Cr soil model: void ratio and stress are inverse on a fixed preconsolidation curve", "statement": "CcCrSoilModel.stress_from_e(e_from_stress(s, pstress), pstress) = s for all s, pstress > 0 and Cc, Cr > 0; e_from_stress is continuous across s = pstress and decreasing in s; av_from_stress is minus the derivative. The linear model inverts itself both ways.", "quantifier": "all parameters and stresses", "why_tests_cant": "Continuum.", "anchors": ["geotecha/constitutive_models/void_ratio_stress.py:CcCrSoilModel"]}
{"id": "C37", "title": "Smear-zone parameter reductions", "statement": "mu_constant with s = 1 or kap = 1 equals mu_ideal; mu_piecewise_constant with a single undisturbed zone equals mu_ideal and with two zones equals mu_constant; splitting a zone into two zones with the same permeability does not change mu_piecewise_constant.", "quantifier": "all n, s, kap and any number of zones", "why_tests_cant": "Any number of zones.", "anchors": ["geotecha/consolidation/smear_zones.py:mu_constant", "geotecha/consolidation/smear_zones.py:mu_ideal", "geotecha/consolidation/smear_zones.py:mu_piecewise_constant"]}
{"id": "C38", "title": "next_output_stem never collides", "statement": "Without overwrite, the stem returned by next_output_stem is different from the stem of every existing file or directory in the path it scanned that has the form prefix + number. Over any history of calls all stems handed out are different and none is the beginning of a name that was there before.", "quantifier": "all prefixes, directory listings, starts and increments >= 1", "why_tests_cant": "All directory contents.", "anchors": ["geotecha/inputoutput/inputoutput.py:next_output_stem"]}
{"id": "C39", "title": "SyntaxChecker accepts only whitelisted programs", "statement": "If checking an input syntax tree raises nothing then every function called by name is an allowed function, and every name read is a safe name, an allowed function, or was assigned earlier in traversal order; and every node type is allowed.", "quantifier": "all syntax trees", "why_tests_cant": "All programs; recursion over unbounded trees.", "anchors": ["geotecha/inputoutput/inputoutput.py:SyntaxChecker"]}
{"id": "C40", "title": "Attribute combination checks raise exactly when violated", "statement": "check_attribute_combinations raises exactly when a zero_or_all group is partly given, an at_least_one group is entirely absent, or a one_implies_others trigger is given without some of its implied attributes.", "quantifier": "all attribute states and all group lists", "why_tests_cant": "All combinations.", "anchors": ["geotecha/inputoutput/inputoutput.py:check_attribute_combinations"]}
{"id": "C41", "title": "working_directory restores the current directory", "statement": "Whether or not the body raises, after leaving working_directory(path) the current directory is what it was before, for any nesting depth.", "quantifier": "all bodies and nesting", "why_tests_cant": "All histories, including exceptions.", "anchors": ["geotecha/inputoutput/inputoutput.py:working_directory"]}
{"id": "C42", "title": "dim1sin_abf_linear is the exact integral", "statement": "For layered linear properties a and b on depth [0,1], entry (i,j) of dim1sin_abf_linear is the integral over the depth of a(z) b(z) sin(m_i z) sin(m_j z), for the 'scalar' and the 'vectorized' implementation.", "quantifier": "all numbers of layers, layer thicknesses, property values and series terms with nonzero distinct abs values", "why_tests_cant": "All real inputs and unbounded layer counts.", "anchors": ["geotecha/speccon/integrals.py:dim1sin_abf_linear"]}
{"id": "C43", "title": "dim1sin_DD_abDDf_linear is the exact integral", "statement": "Entry (i,j) of dim1sin_DD_abDDf_linear is m_i^2 m_j^2 times the integral of a b sin(m_i z) sin(m_j z), i.e. the integral of a b phi_i'' phi_j'', for both implementations.", "quantifier": "all layered linear a, b and all m", "why_tests_cant": "All real inputs.", "anchors": ["geotecha/speccon/integrals.py:dim1sin_DD_abDDf_linear"]}
{"id": "C44", "title": "dim1sin_abc_linear is the exact integral", "statement": "Entry i of dim1sin_abc_linear is the integral of a b c sin(m_i z) over the depth, for both implementations.", "quantifier": "all layered linear a, b, c and all nonzero m", "why_tests_cant": "All real inputs.", "anchors": ["geotecha/speccon/integrals.py:dim1sin_abc_linear"]}
{"id": "C45", "title": "dim1sin_D_aDb_linear is the exact integral (weak form)", "statement": "Entry i of dim1sin_D_aDb_linear is the end terms of a b' sin(m_i z) minus the integral of m_i cos(m_i z) a b', for both implementations.", "quantifier": "all layered linear a, b and all nonzero m", "why_tests_cant": "All real inputs.", "anchors": ["geotecha/speccon/integrals.py:dim1sin_D_aDb_linear"]}
{"id": "C46", "title": "Depth-average integrals between two depths", "statement": "dim1sin_a_linear_between gives the integral of a(z) sin(m_j z) between the two depths of each row, dim1sin_avg_between the average of sin(m_j z) between them, and dim1sin the value sin(m_j z_i).", "quantifier": "all depth pairs inside the profile, all layerings and all nonzero m", "why_tests_cant": "All real inputs; the depth pair may straddle any number of layers.", "anchors": ["geotecha/speccon/integrals.py:dim1sin_a_linear_between", "geotecha/speccon/integrals.py:dim1sin_avg_between", "geotecha/speccon/integrals.py:dim1sin"]}
{"id": "C47", "title": "Series eigenfunctions are orthogonal", "statement": "For uniform a = 1 in any layering and m from m_from_sin_mx (either boundary condition), dim1sin_af_linear is half the identity matrix.", "quantifier": "all layerings, all term counts, both boundary conditions", "why_tests_cant": "All sizes.", "anchors": ["geotecha/speccon/integrals.py:m_from_sin_mx", "geotecha/speccon/integrals.py:dim1sin_af_linear"]}
{"id": "C48", "title": "Eload_coslinear is the convolution of a harmonic load with the decay", "statement": "Eload_coslinear at time t and eigenvalue lam is the integral up to t of load(tau) cos(omega tau + phase) exp(-dT lam (t - tau)), load being the piecewise linear envelope (zero outside the given times), for both implementations.", "quantifier": "all envelopes with non-decreasing times and no consecutive identical points, all omega, phase, t (before, inside, at nodes, after), eigenvalues and dT nonzero", "why_tests_cant": "The closed forms have up to 60 terms each and differ by the position of t; any number and order of ramps, constants and steps.", "anchors": ["geotecha/speccon/integrals.py:Eload_coslinear", "geotecha/speccon/integrals.py:pEload_coslinear"]}
{"id": "C49", "title": "EDload_coslinear is the convolution of the rate of a harmonic load with the decay", "statement": "EDload_coslinear at time t is the sum over steps up to and including t of jump * cos(omega t_step + phase) exp(-dT lam (t - t_step)) plus the integral up to t of d/dtau[load(tau) cos(omega tau + phase)] exp(-dT lam (t - tau)), for both implementations.", "quantifier": "as C48", "why_tests_cant": "as C48", "anchors": ["geotecha/speccon/integrals.py:EDload_coslinear", "geotecha/speccon/integrals.py:pEDload_coslinear"]}
{"id": "C50", "title": "Eload_sinlinear is the convolution of a sine load with the decay", "statement": "Eload_sinlinear at time t is the integral up to t of load(tau) sin(omega tau + phase) exp(-dT lam (t - tau)), for both implementations.", "quantifier": "as C48", "why_tests_cant": "as C48", "anchors": ["geotecha/speccon/integrals.py:Eload_sinlinear", "geotecha/speccon/integrals.py:pEload_sinlinear"]}
{"id": "C51", "title": "Gauss-Kronrod rules and error estimate", "statement": "For each supported n the pair returned by gauss_kronrod_abscissae_and_weights consists of a coarse rule whose weights vanish off the shared nodes and integrates polynomials of degree <= 2n-1, and a fine rule of 2n+1 nodes that integrates polynomials of degree <= 3n+1, both within a tiny multiple of the coefficient sum; gk_quad returns the fine value and the absolute difference of the two; unsupported n raises ValueError.", "quantifier": "all supported n (table), all polynomials of the degree, all intervals", "why_tests_cant": "Universal over polynomials; a wrong digit or misplaced duplicate mask is invisible to most integrands.", "anchors": ["geotecha/mathematics/quadrature.py:gauss_kronrod_abscissae_and_weights", "geotecha/mathematics/quadrature.py:gk_quad"]}
{"id": "C52", "title": "Polygon centroid is the centroid", "statement": "polygon_centroid of a planar polygon in any position and orientation is the area-weighted mean position of its points.", "quantifier": "all planar polygons with any number of vertices, all planes", "why_tests_cant": "All vertex lists and orientations; several branches on zero normal components.", "anchors": ["geotecha/mathematics/geometry.py:polygon_centroid"]}
{"id": "C53", "title": "Polyhedron volume is the enclosed volume", "statement": "polyhedron_volume of a closed polyhedron with planar faces is its enclosed signed volume; for the faces of make_hexahedron of a parallelepiped it is the determinant of the edge vectors.", "quantifier": "all closed polyhedra, any number of faces and vertices, all orientations including faces with zero normal components", "why_tests_cant": "Discrete divergence theorem over all closed surfaces.", "anchors": ["geotecha/mathematics/geometry.py:polyhedron_volume", "geotecha/mathematics/geometry.py:make_hexahedron"]}
{"id": "C54", "title": "Second moment of area", "statement": "polygon_2nd_moment_of_area of a planar polygon returns, per coordinate, the integral of the squared distance from the centroid over the polygon (the tests fix it as divided by the area).", "quantifier": "all planar polygons", "why_tests_cant": "All vertex lists and orientations.", "anchors": ["geotecha/mathematics/geometry.py:polygon_2nd_moment_of_area"]}
{"id": "C55", "title": "Piecewise linear permeability model: the two relations invert each other", "statement": "PwiseLinearPermeabilityModel.e_from_k and k_from_e are inverse on the range of the data, pass through every data point, do not depend on whether the tables are given in increasing or decreasing order, and tables of unequal length raise IndexError.", "quantifier": "all tables of any length, monotone in either direction, all log switches, all arguments within range", "why_tests_cant": "Any number of data points, continuum of arguments.", "anchors": ["geotecha/constitutive_models/void_ratio_permeability.py:PwiseLinearPermeabilityModel"]}
{"id": "C56", "title": "Piecewise linear soil model: stress and void ratio invert each other", "statement": "For PwiseLinearSoilModel with Cr no steeper than the compression line anywhere, stress_from_e and e_from_stress are inverse in both directions for a fixed preconsolidation stress, on the recompression and compression branches; without pstress they are always inverse and pass through the data.", "quantifier": "all tables of any length in either order, all log switches, all stresses and preconsolidation stresses within range", "why_tests_cant": "Any number of data points, continuum of arguments.", "anchors": ["geotecha/constitutive_models/void_ratio_stress.py:PwiseLinearSoilModel"]}
{"id": "C57", "title": "Piecewise linear soil model: av is minus the slope", "statement": "PwiseLinearSoilModel.av_from_stress is minus the derivative of e_from_stress with respect to stress on the recompression branch and on every compression segment, for linear and logarithmic axes.", "quantifier": "all tables, stresses, preconsolidation stresses, log switches", "why_tests_cant": "Derivatives over a continuum; any number of segments.", "anchors": ["geotecha/constitutive_models/void_ratio_stress.py:PwiseLinearSoilModel.av_from_stress"]}
{"id": "C58", "title": "Attributes that should be lists become lists", "statement": "check_attribute_is_list with force_list leaves None and lists alone, wraps any other value in a one-element list, is idempotent and touches no other attribute; without force_list it raises ValueError exactly when some listed attribute is given and is not a list.", "quantifier": "all objects and lists of attribute names", "why_tests_cant": "All objects.", "anchors": ["geotecha/inputoutput/inputoutput.py:check_attribute_is_list"]}
{"id": "C59", "title": "Length pair check is exact", "statement": "check_attribute_pairs_have_equal_length returns exactly when for every pair of names either one of the two is None or both have equal lengths.", "quantifier": "all objects and pair lists", "why_tests_cant": "All objects.", "anchors": ["geotecha/inputoutput/inputoutput.py:check_attribute_pairs_have_equal_length"]}
{"id": "C60", "title": "PolyLine x limits check", "statement": "check_attribute_PolyLines_have_same_x_limits accepts exactly when within each group all PolyLines (also inside lists) begin and end within tolerance of the first one; identical limits are always accepted.", "quantifier": "all objects, groups and PolyLines", "why_tests_cant": "Any number of attributes and lines.", "anchors": ["geotecha/inputoutput/inputoutput.py:check_attribute_PolyLines_have_same_x_limits"]}
{"id": "C61", "title": "What a successful check_input_attributes guarantees", "statement": "After check_input_attributes succeeds no combination rule was violated, list attributes are None or lists, attributes only changed by being wrapped or from None to a list of None, given attributes stay given, and paired attributes have equal lengths.", "quantifier": "all configurations and objects", "why_tests_cant": "All configurations and inputs.", "anchors": ["geotecha/inputoutput/inputoutput.py:InputFileLoaderCheckerSaver.check_input_attributes"]}
{"id": "C62", "title": "Checked spectral inputs have usable loads", "statement": "For Speccon1dVR, Speccon1dVRW, Speccon1dVRC and Speccon1dUnsat, after the input check each load's depth profiles, time histories and frequencies are either all None or lists of one length; for Speccon1dVR the soil data of each drainage direction is complete.", "quantifier": "all input objects", "why_tests_cant": "All combinations of inputs.", "anchors": ["geotecha/speccon/speccon1d_vr.py:Speccon1dVR._setup", "geotecha/speccon/speccon1d_vrw.py:Speccon1dVRW._setup", "geotecha/speccon/speccon1d_vrc.py:Speccon1dVRC._setup", "geotecha/speccon/speccon1d_unsat.py:Speccon1dUnsat._setup", "geotecha/inputoutput/inputoutput.py:InputFileLoaderCheckerSaver.check_input_attributes"]}
{"id": "C63", "title": "Copying and initializing attributes", "statement": "copy_attributes_between_objects gives each listed attribute the source value, else its default, else the not-found value, and touches nothing else; initialize_objects_attributes gives the default or not-found value; copy_dict lets the differences win.", "quantifier": "all objects, defaults and name lists", "why_tests_cant": "All objects.", "anchors": ["geotecha/inputoutput/inputoutput.py:copy_attributes_between_objects", "geotecha/inputoutput/inputoutput.py:initialize_objects_attributes", "geotecha/plotting/one_d.py:copy_dict"]}
{"id": "C64", "title": "Batch processing survives failing files", "statement": "GenericInputFileArgParser.main processes every file exactly once, in order, in the file's own directory, whatever exceptions single files raise; afterwards the working directory and the log level are what they were.", "quantifier": "all file lists, all process functions", "why_tests_cant": "All histories including exceptions.", "anchors": ["geotecha/inputoutput/inputoutput.py:GenericInputFileArgParser.main"]}
{"id": "C65", "title": "File selection by directory and pattern", "statement": "With --directory and --pattern the files processed are exactly the matching files of the directories except the running script itself; when there are none an IOError is raised.", "quantifier": "all directory contents and patterns", "why_tests_cant": "All directory contents.", "anchors": ["geotecha/inputoutput/inputoutput.py:GenericInputFileArgParser.main"]}
{"id": "C66", "title": "hms_string shows the time", "statement": "hms_string shows hours, minutes below 60 and seconds below 60 that add up to the given time to a hundredth of a second.", "quantifier": "all times", "why_tests_cant": "All numbers.", "anchors": ["geotecha/inputoutput/inputoutput.py:hms_string"]}
{"id": "C67", "title": "save_grid_data_to_file writes each grid", "statement": "Each file named by a data dict contains the last such dict's data after the call, other files are untouched, and the caller's dicts can be saved again.", "quantifier": "all lists of data dicts", "why_tests_cant": "All histories of calls.", "anchors": ["geotecha/inputoutput/inputoutput.py:save_grid_data_to_file"]}
{"id": "C68", "title": "Saved parsed input reads back", "statement": "The text from string_of_object_attributes, read back line by line, gives exactly the attribute values of the object.", "quantifier": "all objects with None, integer and string attributes", "why_tests_cant": "All values.", "anchors": ["geotecha/inputoutput/inputoutput.py:string_of_object_attributes"]}
{"id": "C69", "title": "Smear zone parameters are those of radial flow", "statement": "mu_ideal, mu_constant, mu_linear, mu_parabolic and mu_overlapping_linear return the mean normalised pore pressure of radial equal-strain Darcy flow through the permeability profile they describe (undisturbed, constant, linear, parabolic, overlapping linear), and k_linear, k_parabolic, k_overlapping_linear return that profile; invalid arguments raise ValueError. Where np.isclose sends an input to a special case the error is bounded.", "quantifier": "all real n, s, kap", "why_tests_cant": "Closed forms with many terms over continuous ranges; special cases chosen by tolerance.", "anchors": ["geotecha/consolidation/smear_zones.py:mu_ideal", "geotecha/consolidation/smear_zones.py:mu_constant", "geotecha/consolidation/smear_zones.py:mu_linear", "geotecha/consolidation/smear_zones.py:mu_parabolic", "geotecha/consolidation/smear_zones.py:mu_overlapping_linear"]}
{"id": "C70", "title": "Piecewise smear zone parameters", "statement": "mu_piecewise_constant and mu_piecewise_linear return the same quantity for profiles with any number of zones; giving n (and kap_m) is the same as appending a zone. Lists of different length, radii inside the drain or out of order and permeability ratios that are not positive raise ValueError.", "quantifier": "all lists of radii and ratios", "why_tests_cant": "Any number of zones.", "anchors": ["geotecha/consolidation/smear_zones.py:mu_piecewise_constant", "geotecha/consolidation/smear_zones.py:mu_piecewise_linear"]}
{"id": "C71", "title": "Pore pressure around a drain", "statement": "u_ideal, u_constant, u_linear, u_parabolic, u_piecewise_constant and u_piecewise_linear return one continuous pressure distribution whose mean over the soil cylinder is uavg, whose value at the drain exceeds uw by the well loss, and whose increments follow radial flow in the permeability profile; radii outside [1, n] are refused.", "quantifier": "all radii, parameters and numbers of zones", "why_tests_cant": "A property of the whole distribution (its mean, continuity), for all parameters.", "anchors": ["geotecha/consolidation/smear_zones.py:u_ideal", "geotecha/consolidation/smear_zones.py:u_constant", "geotecha/consolidation/smear_zones.py:u_linear", "geotecha/consolidation/smear_zones.py:u_parabolic", "geotecha/consolidation/smear_zones.py:u_piecewise_constant", "geotecha/consolidation/smear_zones.py:u_piecewise_linear"]}
{"id": "C72", "title": "More disturbance or wider spacing drains slower", "statement": "The parameter grows with every permeability ratio and with the smear extent (ideal <= parabolic <= linear <= constant); at fixed drain and smear zone drain_eta strictly decreases with the drain spacing, so the spacing with a given eta is unique.", "quantifier": "all profiles and spacings", "why_tests_cant": "Monotonicity over all inputs.", "anchors": ["geotecha/consolidation/smear_zones.py:drain_eta", "geotecha/consolidation/smear_zones.py:back_calc_drain_spacing_from_eta", "geotecha/consolidation/smear_zones.py:mu_constant"]}
{"id": "C73", "title": "Drain spacing and well resistance", "statement": "re_from_drain_spacing gives the circle with the area served by one drain (square or triangular pattern), refuses other patterns and non-positive spacings; mu_well_resistance without a depth is the mean over depth of its values.", "quantifier": "all spacings, all depths", "why_tests_cant": "All numbers.", "anchors": ["geotecha/consolidation/smear_zones.py:re_from_drain_spacing", "geotecha/consolidation/smear_zones.py:mu_well_resistance"]}
{"id": "C74", "title": "Pore pressure output meets the boundary conditions", "statement": "dim1sin_f returns the sine series plus the boundary values interpolated linearly over depth (constant over depth for an impervious bottom): at the top exactly the prescribed value, at a pervious bottom the prescribed bottom value, at an impervious bottom the prescribed gradient, whatever the coefficients.", "quantifier": "all coefficients, depths in [0, 1], times covered by the loads, lists of loads with and without cosine factors", "why_tests_cant": "A statement for every coefficient vector and every load history.", "anchors": ["geotecha/speccon/speccon1d.py:dim1sin_f"]}
{"id": "C75", "title": "Average output is the mean of the pointwise output", "statement": "dim1sin_avgf between two depths times their distance is the integral over depth of what dim1sin_f returns.", "quantifier": "all coefficients, pairs of depths, times and loads", "why_tests_cant": "An integral identity for all inputs.", "anchors": ["geotecha/speccon/speccon1d.py:dim1sin_avgf"]}
{"id": "C76", "title": "Integrated output and settlement agree with the pore pressure", "statement": "dim1sin_integrate_af is the integral of the depth profile times what dim1sin_f returns; in one run of speccon1d_vr the average pressure is the mean of por, and the settlement is H mvref times the integral of mv times the effective stress (surcharge minus por).", "quantifier": "all layered profiles, loads, depths and times", "why_tests_cant": "Relations between three outputs for every input.", "anchors": ["geotecha/speccon/speccon1d.py:dim1sin_integrate_af", "geotecha/speccon/speccon1d_vr.py:Speccon1dVR._make_set", "geotecha/speccon/speccon1d_vr.py:Speccon1dVR._make_avp"]}
{"id": "C77", "title": "speccon1d_vr solves the consolidation equation", "statement": "The pore pressure computed by speccon1d_vr satisfies the boundary conditions and, tested with each of its sine functions, the vertical and radial consolidation equation of the class notes (storage, vertical flow, drain flow, fixed pressures, pumps, surcharge, vacuum, boundary loads) at every time, up to the matrix entries below 1e-8 that the program sets to zero.", "quantifier": "all numbers of terms, layered profiles, combinations and lists of loads with optional cosine factors, all times", "why_tests_cant": "The equation must hold for every problem and time; a test compares a few numbers.", "anchors": ["geotecha/speccon/speccon1d_vr.py:Speccon1dVR.make_por", "geotecha/speccon/speccon1d_vr.py:Speccon1dVR._make_psi", "geotecha/speccon/speccon1d_vr.py:Speccon1dVR._make_gam", "geotecha/speccon/speccon1d_vr.py:Speccon1dVR.make_E_Igamv_the"]}
{"id": "C78", "title": "The eigenvalue problem is solvable with positive eigenvalues", "statement": "For positive compressibility and permeability (large against 1e-8 times the number of terms) the matrices handed to numpy are symmetric positive definite, so real eigenvectors exist and all eigenvalues are positive.", "quantifier": "all such profiles and numbers of terms, all solutions of the eigenvalue problem", "why_tests_cant": "All profiles and sizes.", "anchors": ["geotecha/speccon/speccon1d_vr.py:Speccon1dVR._make_eigs_and_v", "geotecha/speccon/speccon1d_vr.py:Speccon1dVR._make_psi"]}
{"id": "C79", "title": "Excess pore pressure dissipates", "statement": "Once the surcharge is constant and all other loads are off, the computed pore pressure is a sum of modes that each decay exponentially at dT times the eigenvalue.", "quantifier": "all problems, all later times", "why_tests_cant": "An exact law in time for every earlier load history.", "anchors": ["geotecha/speccon/speccon1d_vr.py:Speccon1dVR.make_por"]}
{"id": "C80", "title": "speccon1d_vrw solves the coupled soil/drain equations", "statement": "The pore pressure computed by speccon1d_vrw, together with a drain pressure of the same series form, satisfies the boundary conditions (the same for soil and drain), the weak form of the soil equation with that drain pressure (up to the matrix entries below 1e-8 that the program drops) and the flow balance of the drain.", "quantifier": "all layered inputs, boundary conditions, load histories, drain permeabilities, numbers of terms, depths and times", "why_tests_cant": "All profiles, histories and truncations at once; the second unknown is eliminated inside the program and never shown.", "anchors": ["geotecha/speccon/speccon1d_vrw.py:Speccon1dVRW._make_psi_w", "geotecha/speccon/speccon1d_vrw.py:Speccon1dVRW.make_E_Igamv_the", "geotecha/speccon/speccon1d_vrw.py:Speccon1dVRW._make_por"]}
{"id": "C81", "title": "The reported drain pressure is that of the equations", "statement": "The drain pressure reported by speccon1d_vrw (ppress_interval/porwell output) has the boundary values of the soil and satisfies the flow balance of the drain with the reported pore pressure.", "quantifier": "all inputs, depths and times", "why_tests_cant": "All inputs; the error term depends on the choice of dT, H and the boundary loads.", "anchors": ["geotecha/speccon/speccon1d_vrw.py:Speccon1dVRW._make_porwell", "geotecha/speccon/speccon1d.py:dim1sin_foft_Ipsiw_the_BC_D_aDf_linear"]}
{"id": "C82", "title": "The outputs of speccon1d_vrw agree with each other", "statement": "Average pore pressure times interval length is the integral of the pore pressure; settlement is H mvref times the integral of mv times effective stress.", "quantifier": "all inputs, depth intervals and times", "why_tests_cant": "An identity between outputs for every input.", "anchors": ["geotecha/speccon/speccon1d_vrw.py:Speccon1dVRW._make_avp", "geotecha/speccon/speccon1d_vrw.py:Speccon1dVRW._make_set"]}
{"id": "C83", "title": "The drain matrix is invertible and the reduced eigenvalue problem has positive eigenvalues", "statement": "For positive compressibility and vertical permeability, and a drain or radial permeability that is not zero, the matrix psi_w has an inverse, the reduced (Schur complement) eigenvalue problem has real eigenvectors and all its eigenvalues are positive.", "quantifier": "all such profiles and numbers of terms, all inverses and eigensystems numpy may return", "why_tests_cant": "All profiles and sizes.", "anchors": ["geotecha/speccon/speccon1d_vrw.py:Speccon1dVRW._make_eigs_and_v"]}
{"id": "C84", "title": "terzaghi_1d solves Terzaghi's equation", "statement": "The pore pressures returned by terzaghi_1d are samples of a function that satisfies Terzaghi's equation with the given kv, mv, gamw, is zero at the top and has no gradient at the bottom; the flow rates returned by terzaghi_1d_flowrate are kv/gamw times its gradient; with more terms the pressure at time zero approaches ui; after time zero the terms left out are bounded by an explicit exponentially small bound. Truncated after any number of terms the pore pressure is nowhere of the opposite sign to ui.", "quantifier": "all depths, times, soil properties and numbers of terms", "why_tests_cant": "All depths, times and properties; the limit in the number of terms is infinite.", "anchors": ["geotecha/consolidation/terzahi.py:terzaghi_1d", "geotecha/consolidation/terzahi.py:terzaghi_1d_flowrate"]}
{"id": "C85", "title": "Degree of consolidation of terzaghi_1d is consistent", "statement": "The degree of consolidation is one less the mean pore pressure over ui; the settlement it implies grows at the rate at which water leaves the top; it increases strictly from between 0 and 1 towards 1; truncation changes it by at most 2/(pi^2 n).", "quantifier": "all soil properties, times and numbers of terms", "why_tests_cant": "All times and term counts.", "anchors": ["geotecha/consolidation/terzahi.py:terzaghi_1d", "geotecha/consolidation/terzahi.py:terzaghi_1d_flowrate"]}
{"id": "C86", "title": "lu et al. (2010) solves the composite foundation equations", "statement": "The overall, soil and column pore pressures returned by luetal2010 satisfy the equal-strain equations of a column in a soil cylinder with vertical and radial flow in both; the settlement is the strain summed over the depth.", "quantifier": "all sensible arguments (smear profiles of the three kinds), depths, times and numbers of terms", "why_tests_cant": "All inputs; the equations are differential.", "anchors": ["geotecha/consolidation/luetal2010.py:luetal2010"]}
{"id": "C87", "title": "Initial and final states of luetal2010", "statement": "With more terms the overall pore pressure at time zero approaches the line from utop to ubot; all pressures die out and the settlement tends to that of the drained composite under the mean stress.", "quantifier": "all sensible arguments and times", "why_tests_cant": "Limits over infinitely many times and terms.", "anchors": ["geotecha/consolidation/luetal2010.py:luetal2010"]}
{"id": "C88", "title": "tangandonitsuka2000 solves the vertical drain equations", "statement": "The average pore pressures returned by tangandonitsuka2000 satisfy, with a drain pressure, the equations of vertical and radial consolidation with smear and well resistance under the given load history; the average pore pressure output is its mean over the depth.", "quantifier": "all sensible arguments, load histories of time points (ramps and steps), depths, times and numbers of terms", "why_tests_cant": "All inputs and load histories.", "anchors": ["geotecha/consolidation/tangandonitsuka2000.py:tangandonitsuka2000"]}
{"id": "C89", "title": "Settlement of tangandonitsuka2000", "statement": "The settlement reported is the compressibility times load less pore pressure, summed over the depth.", "quantifier": "all sensible arguments, load histories and times", "why_tests_cant": "All inputs; fails exactly at the moments of load steps, which sampled times would miss.", "anchors": ["geotecha/consolidation/tangandonitsuka2000.py:tangandonitsuka2000"]}
{"id": "C90", "title": "speccon1d_vrc solves the coupled equations of soil and permeable column", "statement": "With a soil pressure, a column pressure and an interface pressure of the same series form and the same boundary values, the average pore pressure reported by speccon1d_vrc satisfies the weak equations of the soil, of the column and of the composite section; with boundary loads and a column whose permeability varies with depth the section equation is off by exactly a stated term (a defect of the code).", "quantifier": "all inputs of speccon1d_vrc (profiles, surcharges, boundary loads, numbers of terms), depths, times and test functions of the series", "why_tests_cant": "All inputs, times and depths; a comparison with another solution would sample a few homogeneous cases.", "anchors": ["geotecha/speccon/speccon1d_vrc.py:Speccon1dVRC._make_psi", "geotecha/speccon/speccon1d_vrc.py:Speccon1dVRC._make_E_Igamv_the_BC", "geotecha/speccon/speccon1d_vrc.py:Speccon1dVRC._make_por"]}
{"id": "C91", "title": "Average pore pressure and settlement of speccon1d_vrc", "statement": "The reported average pore pressure is the mean over the depth interval of the reported pore pressure of the same run, and the reported settlement is the compressibility times surcharge less pore pressure integrated over the interval.", "quantifier": "all inputs of speccon1d_vrc, depth intervals and times", "why_tests_cant": "All inputs; the three outputs are computed by different formulas.", "anchors": ["geotecha/speccon/speccon1d_vrc.py:Speccon1dVRC._make_avp", "geotecha/speccon/speccon1d_vrc.py:Speccon1dVRC._make_set"]}
{"id": "C92", "title": "Pressures in soil and column of speccon1d_vrc", "statement": "The reported average pore pressure is the area average of the reported pressures in soil and column at every point, the reported averages over depth are the means of the reported pressures, and the two pressures have the prescribed boundary values and satisfy the equations of soil, column and section.", "quantifier": "all inputs of speccon1d_vrc, depths and times", "why_tests_cant": "All inputs; the last part is false of the code for boundary loads with dT other than 1.", "anchors": ["geotecha/speccon/speccon1d_vrc.py:Speccon1dVRC._make_por", "geotecha/speccon/speccon1d_vrc.py:Speccon1dVRC._make_avp"]}
{"id": "C93", "title": "speccon1d_vrc always has a decaying solution", "statement": "For positive compressibility and permeabilities and a diameter ratio above one, the matrix of soil and column that the program inverts is invertible, the eigenvalue problem has a real solution, and all eigenvalues are positive.", "quantifier": "all such inputs and numbers of terms (as long as the entries below 1e-8 that the program sets to zero are small against the matrices)", "why_tests_cant": "Singularity of one matrix among infinitely many inputs and sizes.", "anchors": ["geotecha/speccon/speccon1d_vrc.py:Speccon1dVRC._make_psi", "geotecha/speccon/speccon1d_vrc.py:Speccon1dVRC._make_eigs_and_v"]}
{"id": "C94", "title": "The equations of unsaturated consolidation", "statement": "The water and air pressures reported by speccon1d_unsat have the prescribed boundary values and satisfy the water and the air balance of unsaturated consolidation, tested with every sine of the series, up to matrix entries below 1e-8.", "quantifier": "all inputs of speccon1d_unsat (any number of layers, loads and terms), all depths and times", "why_tests_cant": "All inputs and times; false of the code when all four boundary lists are given.", "anchors": ["geotecha/speccon/speccon1d_unsat.py:Speccon1dUnsat.make_E_Igamv_the", "geotecha/speccon/speccon1d_unsat.py:Speccon1dUnsat._make_por"]}
{"id": "C95", "title": "Average pressures and settlement of speccon1d_unsat", "statement": "The reported average water and air pressures are the means over the depth interval of the reported pressures of the same run, and the reported total settlement is the integral over the interval of the strains of water and air for the reported pressures.", "quantifier": "all inputs of speccon1d_unsat, depth intervals and times", "why_tests_cant": "All inputs; the outputs are computed by different formulas.", "anchors": ["geotecha/speccon/speccon1d_unsat.py:Speccon1dUnsat._make_avp", "geotecha/speccon/speccon1d_unsat.py:Speccon1dUnsat._make_set"]}
{"id": "C96", "title": "Water and air parts of the settlement of speccon1d_unsat", "statement": "The reported water part and air part of the settlement are the integrals of the strain of the water and of the strain of the air.", "quantifier": "all inputs of speccon1d_unsat, depth intervals and times", "why_tests_cant": "All inputs; false of the code unless m2a is zero.", "anchors": ["geotecha/speccon/speccon1d_unsat.py:Speccon1dUnsat._make_set"]}
{"id": "C97", "title": "No undying mode in speccon1d_unsat", "statement": "If water and air can flow at all depths, no eigenvalue used by speccon1d_unsat is zero, so the program never divides by a zero eigenvalue.", "quantifier": "all such inputs, numbers of terms, and all results of the eigenvalue routine", "why_tests_cant": "Infinitely many inputs and sizes.", "anchors": ["geotecha/speccon/speccon1d_unsat.py:Speccon1dUnsat._make_psi", "geotecha/speccon/speccon1d_unsat.py:Speccon1dUnsat._make_eigs_and_v"]}
{"id": "C98", "title": "Slope of the water characteristic curves", "statement": "For both soil water characteristic curves (Fredlund-Xing and Pham-Fredlund), dw_dpsi at any positive suction is the derivative of w_from_psi there, whether the correction factor is computed or given by hand.", "quantifier": "all suctions > 0, all parameters with a > 0 and psir > 0, both correction modes", "why_tests_cant": "the docstring examples compare a few numbers; the identity is between two closed forms for every parameter set", "anchors": ["geotecha/constitutive_models/swcc.py:SWCC_FredlundAndXing1994.dw_dpsi", "geotecha/constitutive_models/swcc.py:SWCC_PhamAndFredlund2008.dw_dpsi"]}
{"id": "C99", "title": "Shape of the water characteristic curves", "statement": "With the computed correction the water content falls strictly with suction from the saturated value ws to zero at 1e6 and never exceeds ws. Holds for Fredlund-Xing (past 1e6 the value is negative); for Pham-Fredlund the fall and the zero hold, the bound ws holds only from a suction of one on: near zero suction the value grows without bound. The default residual suction of Pham-Fredlund satisfies psir**b = 2.7 a.", "quantifier": "all suctions in (0, 1e6], all parameters with positive a, n, m, ws, psir (resp. a, b, psir > 0, wr, s1 >= 0 and wr < ws - 6 s1)", "why_tests_cant": "monotonicity and bounds over a continuum of suctions and parameters", "anchors": ["geotecha/constitutive_models/swcc.py:SWCC_FredlundAndXing1994.w_from_psi", "geotecha/constitutive_models/swcc.py:SWCC_PhamAndFredlund2008.w_from_psi", "geotecha/constitutive_models/swcc.py:SWCC_PhamAndFredlund2008.__init__"]}
{"id": "C100", "title": "Relative permeability from a water characteristic curve", "statement": "k_from_psi is positive below a suction of 1e6 and zero there for every number of points, and as npts grows it converges to the documented ratio of integrals, which falls strictly with suction and is below one past the air entry value. For Pham-Fredlund k is exactly one at the air entry value; for Fredlund-Xing it is always below one there. An array of suctions gives the array of single values, one suction gives a scalar.", "quantifier": "all suctions in (0, 1e6], all air entry values in (0, 1e6), all npts >= 1, all admissible parameters, all array lengths", "why_tests_cant": "a limit in the number of integration points and a sign for every npts cannot be tested", "anchors": ["geotecha/constitutive_models/swcc.py:SWCC_FredlundAndXing1994.k_from_psi", "geotecha/constitutive_models/swcc.py:SWCC_PhamAndFredlund2008.k_from_psi"]}
{"id": "C101", "title": "Relative permeability from a discrete water characteristic curve", "statement": "kwrel_from_discrete_swcc returns, for a suction inside the data, the Fredlund-Xing-Huang ratio of sums with geometric mid suctions; it lies between zero and one, is one on the first interval and never rises with suction. A suction at or past the last point raises IndexError. A suction below the first point should be refused or give one: instead a non-positive number comes back (negative when the first interval loses water).", "quantifier": "all increasing positive suction arrays with falling water contents of any length, all suctions, all array lengths", "why_tests_cant": "every data array and every suction", "anchors": ["geotecha/constitutive_models/swcc.py:kwrel_from_discrete_swcc"]}
{"id": "C102", "title": "Relative air permeability", "statement": "karel_air_from_saturation is one at zero saturation, zero at full saturation, strictly falling between and always within [0, 1].", "quantifier": "all saturations in [0, 1], all qfit > 0", "why_tests_cant": "a continuum of saturations and fitting parameters", "anchors": ["geotecha/constitutive_models/swcc.py:karel_air_from_saturation"]}
{"id": "C103", "title": "find_n_roots returns the first n roots", "statement": "When find_n_roots returns, the array holds n values, all roots of the function, strictly increasing, all past x0, for every function, starting step and step factor, provided fsolve returns a root of the interval it is started in. That they are the first n roots holds when the roots are sign changes further apart than dx and p=1; in general roots closer than the step are missed.", "quantifier": "all functions, solvers meeting the contract, n, x0, dx > 0, p > 0, max_iter and tolerances", "why_tests_cant": "all functions and all loop histories", "anchors": ["geotecha/mathematics/root_finding.py:find_n_roots"]}
{"id": "C104", "title": "find_n_roots ends", "statement": "find_n_roots always ends, with roots or with an error, as max_iter promises. False of the code: started exactly on a root (or restarted on one) it loops forever whatever max_iter is, and with a step factor of five it can cycle forever. With p=1 and a continuous function it ends if and only if no search starts exactly on a root; asked for one root from a non-root it always ends.", "quantifier": "all continuous functions, solvers, n, x0, dx > 0, max_iter >= 0", "why_tests_cant": "termination over unbounded loop histories", "anchors": ["geotecha/mathematics/root_finding.py:find_n_roots"]}
{"id": "C105", "title": "find_n_roots near zero", "statement": "A root within atol of zero is found like any other. False of the code: the first root is compared with an unset array entry (zero) and the repeat counter is unset, so no list whose first root lies within atol of zero is ever returned; a function whose only root lies there gets an exception.", "quantifier": "all functions, all calls", "why_tests_cant": "all functions and histories", "anchors": ["geotecha/mathematics/root_finding.py:find_n_roots"]}
{"id": "C106", "title": "fixed_point_no_accel", "statement": "fixed_point_no_accel returns the first iterate whose relative change is below xtol, raises if none of the first maxiter does; for a contraction the returned value is within q/(1-q) times the last change of the fixed point, and with enough iterations it always returns when the fixed point is not zero (false when it is zero).", "quantifier": "all functions, starts, tolerances, iteration limits; scalars and arrays", "why_tests_cant": "all iterations of any function", "anchors": ["geotecha/mathematics/root_finding.py:fixed_point_no_accel"]}
{"id": "C107", "title": "Large strain consolidation: the equations are solved", "statement": "For both drainage conditions, every number of terms, depth in the layer and time >= 0, the pore pressures and void ratios returned by u_PTIB/e_PTIB and u_PTPB/e_PTPB together satisfy the large strain consolidation equations (constant mvl soil law, permeability varying with (1+e)^2, mass balance in material coordinates), the drained boundaries have zero pressure and the impermeable base zero gradient; the pressure is never negative and the logarithm is never taken of a number below one.", "quantifier": "all parameters with H, mvl, gamw > 0, kv0, qu >= 0, 1+e0 > 0; all depths 0..H, times >= 0, numbers of terms", "why_tests_cant": "identities and inequalities over reals for every truncation", "anchors": ["geotecha/consolidation/xieandleo2004.py:XieAndLeo2004.u_PTIB", "geotecha/consolidation/xieandleo2004.py:XieAndLeo2004.u_PTPB", "geotecha/consolidation/xieandleo2004.py:XieAndLeo2004.e_PTIB", "geotecha/consolidation/xieandleo2004.py:XieAndLeo2004.e_PTPB"]}
{"id": "C108", "title": "Large strain consolidation: before and after", "statement": "initial_effective_stress is in equilibrium with the submerged weight of the soil and with e0 through the soil law; efinal is the void ratio when the whole load is effective, settlement_final the sum of the final strains; in time the pressures tend to zero and the void ratios to efinal; at time zero the strain tends to zero (mean square) as terms are added.", "quantifier": "all valid parameters, all depths", "why_tests_cant": "limits and integrals", "anchors": ["geotecha/consolidation/xieandleo2004.py:XieAndLeo2004.initial_effective_stress", "geotecha/consolidation/xieandleo2004.py:XieAndLeo2004.efinal", "geotecha/consolidation/xieandleo2004.py:XieAndLeo2004.settlement_final"]}
{"id": "C109", "title": "Large strain consolidation: settlement and position", "statement": "settlement is the integral of the strain below the particle, xi moves with velocity vs, its spacing follows the void ratio, particles stay in order and the base does not move, Us is the surface settlement over settlement_final, total pore pressure is excess plus hydrostatic at the current position.", "quantifier": "all valid parameters, depths, times, numbers of terms, both drainage conditions", "why_tests_cant": "integrals and derivatives for every input", "anchors": ["geotecha/consolidation/xieandleo2004.py:XieAndLeo2004.settlement_PTIB", "geotecha/consolidation/xieandleo2004.py:XieAndLeo2004.settlement_PTPB", "geotecha/consolidation/xieandleo2004.py:XieAndLeo2004.vs_PTIB", "geotecha/consolidation/xieandleo2004.py:XieAndLeo2004.xi_PTIB", "geotecha/consolidation/xieandleo2004.py:XieAndLeo2004.Us_PTIB"]}
{"id": "C110", "title": "Large strain consolidation: water velocity", "statement": "vs is the Darcy flux past the particle (less that at the base), and vw conserves water: e times vw balances the solids (drained at the top), e vw + vs equals (1+e) times the discharge at the base (drained at both ends). False of vw_PTPB: it is off by vs/(2e), so wrong wherever the solids move.", "quantifier": "all valid parameters, depths, times, numbers of terms", "why_tests_cant": "identity for every input", "anchors": ["geotecha/consolidation/xieandleo2004.py:XieAndLeo2004.vw_PTIB", "geotecha/consolidation/xieandleo2004.py:XieAndLeo2004.vw_PTPB"]}
{"id": "C111", "title": "Large strain consolidation: degree of consolidation and its inverse", "statement": "Us increases strictly with time, is positive for t >= 0, below one and tends to one, PTPB being four times as fast; t_from_Us returns the time of a given Us to within 2.34 % for time factors 0.0001 to 10, and the end times outside.", "quantifier": "all valid permeable parameters, numbers of terms >= 1, all times and degrees of consolidation", "why_tests_cant": "every real time", "anchors": ["geotecha/consolidation/xieandleo2004.py:XieAndLeo2004.Us_PTIB", "geotecha/consolidation/xieandleo2004.py:XieAndLeo2004.Us_PTPB", "geotecha/consolidation/xieandleo2004.py:XieAndLeo2004.t_from_Us_PTIB", "geotecha/consolidation/xieandleo2004.py:XieAndLeo2004.t_from_Us_PTPB"]}
{"id": "C112", "title": "Large strain consolidation: pore pressure lags settlement", "statement": "Up never exceeds one, and does not exceed Us at any time when the pore pressure is nowhere above the load; that is so for every number of terms from time factor 2/pi on.", "quantifier": "all valid parameters with qu > 0, times >= 0, numbers of terms", "why_tests_cant": "inequality of integrals", "anchors": ["geotecha/consolidation/xieandleo2004.py:XieAndLeo2004.Up_PTIB", "geotecha/consolidation/xieandleo2004.py:XieAndLeo2004.Up_PTPB"]}
{"id": "C113", "title": "Large strain consolidation: stresses", "statement": "Effective stress is the initial one plus qu less the excess pore pressure, and total stress is effective stress plus total pore pressure. False of the code: all four methods (and plot_all, which calls them) raise NameError for every object, because qu is looked up as a module-level name.", "quantifier": "all objects, depths and times", "why_tests_cant": "every call", "anchors": ["geotecha/consolidation/xieandleo2004.py:XieAndLeo2004.effective_stress_PTIB", "geotecha/consolidation/xieandleo2004.py:XieAndLeo2004.effective_stress_PTPB", "geotecha/consolidation/xieandleo2004.py:XieAndLeo2004.total_stress_PTIB", "geotecha/consolidation/xieandleo2004.py:XieAndLeo2004.total_stress_PTPB"]}
{"id": "C114", "title": "Shades, tints and reduced levels", "statement": "rgb_shade and rgb_tint raise ValueError exactly when the factor is outside [0, 1]; otherwise each colour component of the shade lies between 0 and the original and that of the tint between the original and full intensity, in proportion to the factor, and an alpha value is returned unchanged. depth_to_reduced_level with rlzero is inverted by z = (rlzero - level)/H, and without rlzero by z = depth/H.", "quantifier": "every colour with or without alpha, every factor, scaled or not; every depth, height and datum", "why_tests_cant": "a range statement over all real components and factors", "anchors": ["geotecha/plotting/one_d.py:rgb_shade", "geotecha/plotting/one_d.py:rgb_tint", "geotecha/mathematics/transformations.py:depth_to_reduced_level"]}
{"id": "C115", "title": "Merging of style dictionaries and splitting of plot arguments", "statement": "copy_dict returns a dict in which each key has the value of the updates if they have it and of the source otherwise; split_sequence_into_dict_and_nondicts returns every non-dict argument in order and one merged dict in which each key has the value of the last dict that has it.", "quantifier": "all dictionaries and all argument sequences of any length", "why_tests_cant": "ranges over all finite maps and all sequences", "anchors": ["geotecha/plotting/one_d.py:copy_dict", "geotecha/plotting/one_d.py:split_sequence_into_dict_and_nondicts"]}
{"id": "C116", "title": "Order of subplots is a bijection", "statement": "row_major_order_reverse_map returns, for an array of any number of dimensions, at the place of each index the place of the index with the chosen dimensions counted from the end (with transpose: at the place of the reversed index of the transposed array); so every position occurs exactly once, without transpose the map is its own inverse, the default is the ordinary order, and more steps than dimensions raise.", "quantifier": "all shapes of any dimension, all lists of steps 1/-1, transposed or not", "why_tests_cant": "unbounded number of dimensions and sizes", "anchors": ["geotecha/plotting/one_d.py:row_major_order_reverse_map"]}
{"id": "C117", "title": "Line styles", "statement": "MarkersDashesColors()(markers, dashes, marker_colors, line_colors): there are as many styles as the longest list has entries and the i-th style is made of the i-th entries of the four lists, each repeated cyclically (None: no marker / no line / default colour; a 'none' edge or face colour of a marker is kept); with nothing given every marker, dash pattern and colour occurs at least once; numbers within the tables never raise; an empty list beside a non-empty one always raises. Every object of the class has 32 complete markers whatever the keywords.", "quantifier": "all four lists of any lengths and entries, all objects, all constructor keywords", "why_tests_cant": "cyclic combination over unbounded lists", "anchors": ["geotecha/plotting/one_d.py:MarkersDashesColors"]}
{"id": "C118", "title": "Subplots in a grid and calls on many objects", "statement": "plot_data_in_grid returns one Axes per data set, in order, at the requested grid position, with every entry of the data set plotted in order (plot_type as method); sharex/sharey are documented to share axes but no axes are ever shared, one number k for two or more data sets is accepted only for k = 0 and [None] never. iterable_method_call calls object i exactly once with argument i (all objects with a single argument, none with None); apply_dict_to_object refuses unequal numbers and applies exactly the entries with a setter, in order; save_figure writes one file per extension and passes dpi for png only.", "quantifier": "all data sets, positions, share lists; all numbers of objects and arguments", "why_tests_cant": "ranges over all sequences and share specifications", "anchors": ["geotecha/plotting/one_d.py:plot_data_in_grid", "geotecha/plotting/one_d.py:iterable_method_call", "geotecha/plotting/one_d.py:apply_dict_to_object", "geotecha/plotting/one_d.py:save_figure"]}
{"id": "C119", "title": "Fourier transform of real, imaginary and complex functions", "statement": "FourierTransform(func, ...)(s) is the Fourier transform (or inverse, with inv) of func over the documented range, whenever the declared facts about func (real, imaginary, even, odd, even/odd real and imaginary parts) are true of it: for func_is_real with any symmetry flag, for func_is_imag together with an even or odd flag, and for complex functions unless imag_part_even or real_part_odd is declared. With the default limits the range is the whole real line.", "quantifier": "all functions that are as declared and integrable, all transform variables, limits, signs of the exponent", "why_tests_cant": "integrals of arbitrary functions; tests compare a few closed forms", "anchors": ["geotecha/mathematics/fourier.py:FourierTransform"]}
{"id": "C120", "title": "Fourier transform: combinations of flags that go wrong", "statement": "For func_is_imag without a symmetry flag the value returned is minus the conjugate of the transform, so it is right exactly when the transform is purely imaginary; with imag_part_even or real_part_odd declared for a complex function the call raises TypeError (Python complex) or silently drops the imaginary part (numpy complex).", "quantifier": "all functions that are as declared", "why_tests_cant": "the wrong branch only shows for functions without symmetry", "anchors": ["geotecha/mathematics/fourier.py:FourierTransform"]}
{"id": "C121", "title": "Fourier round trip", "statement": "Transforming a continuous integrable function with an integrable transform and applying the inverse FourierTransform to the result gives the function back.", "quantifier": "all such functions, all points", "why_tests_cant": "inversion theorem over all functions", "anchors": ["geotecha/mathematics/fourier.py:FourierTransform"]}
{"id": "C122", "title": "Numerical inverse Laplace transform", "statement": "Talbot(f, n, shift)(t) is the real part of the midpoint rule with N nodes for the Bromwich integral along the Talbot contour, N being n rounded up to even, and the weights are the true derivative of the contour at the nodes; no node hits a pole of the contour; a zero among the times raises ValueError and nothing else does; n = 0 raises ZeroDivisionError; one time gives a number, otherwise an array in the order of the times; vectorized or looped evaluation and the mpmath class give the same values.", "quantifier": "all functions, n, shifts and lists of times", "why_tests_cant": "holds for every n and every function", "anchors": ["geotecha/mathematics/laplace.py:Talbot", "geotecha/mathematics/mp_laplace.py:Talbot"]}
{"id": "C123", "title": "Laws of the inverse Laplace transform", "statement": "The numerical inverse is linear in the function for real coefficients, obeys the shift rule (shift=a on f(.-a) gives e^{at} times the unshifted answer) and the scaling rule exactly, is real without loss for transforms of real functions, and returns 0 for i times such a transform.", "quantifier": "all functions, times, coefficients, even and odd n", "why_tests_cant": "algebraic laws for all inputs", "anchors": ["geotecha/mathematics/laplace.py:Talbot"]}
{"id": "C124", "title": "Transforms over several variables", "statement": "ntransform returns the transforms carried out one after the other, the first in the list over the first argument of func and innermost, each with its own variable and options (options may be functions of the remaining arguments), and as error the largest error estimate of any transform run on the way; options left out mean defaults; a wrong number of variables raises AssertionError, an empty list IndexError, an unknown outermost name KeyError; Hankel and Hankel_inverse are interchangeable; a list of options that is too long is used from its end. Options given as one dict (documented as allowed) always raise TypeError.", "quantifier": "all numbers of variables, all functions, all transforms seen as procedures that ask for function values, all options", "why_tests_cant": "depth of nesting is unbounded and the procedures adaptive", "anchors": ["geotecha/mathematics/multi_transform.py:ntransform,_NTransform"]}
{"id": "C125", "title": "Hankel transform", "statement": "Without extrapolation HankelTransform(f, ...)(s) is the integral of f(r) r J(sr) from 0 to the last zero, up to the accuracy of gk_quad on the segments, whatever extra points are given; with limits a, b it is the integral over [a, b] cut down to [0, last zero], IndexError if nothing is left; with extrapolation it is the sum of the whole series when the segment integrals are geometric. The same for vhankel_transform.", "quantifier": "all functions, s > 0, points, limits, increasing lists of zeros, numbers of segments", "why_tests_cant": "integrals and partitions of any size", "anchors": ["geotecha/mathematics/hankel.py:HankelTransform,vhankel_transform"]}
{"id": "C126", "title": "Error estimate of the Hankel transform", "statement": "The documented error estimate is the sum of 200 abs(G-K)^1.5 over the segments. What is returned is sqrt(200) times that when there are at least two segments, and abs(G-K) itself when there is one.", "quantifier": "all functions and segments", "why_tests_cant": "formula for all values", "anchors": ["geotecha/mathematics/hankel.py:HankelTransform.__call__"]}
{"id": "C127", "title": "Radial consolidation with a varying drain solves Hansbo's equation", "statement": "For every positive geometry and soil, every drain capacity kw0 (A1 - A2 z/H) exp(-A3 t) with 0 <= A2 <= A1, A3 >= 0, every list of depths and times, each value dengetal2013 returns is the value at that depth and time of the function that starts at ui and obeys Hansbo's equation with resistance mu0 plus the well resistance 2 pi kh times the integral from the top of (H-y)/qw(y,t).", "quantifier": "all parameters with 0<rw<re, all lists of depths in the layer at which the closed formula is finite and all lists of times, in all four branches of the code", "why_tests_cant": "The branches are four different closed formulas; that each solves one differential equation with an integral in it is a statement on all times and depths, tests compare digitised curves", "anchors": ["geotecha/consolidation/dengetal2013and2014.py:dengetal2013", "geotecha/consolidation/smear_zones.py:mu_ideal", "geotecha/consolidation/smear_zones.py:mu_constant"]}
{"id": "C128", "title": "Pore pressures of dengetal2013 decrease and stay between the ideal drain and the start", "statement": "For a nonnegative initial pressure the values never increase with time, never exceed ui and never fall below the solution of a drain without well resistance.", "quantifier": "all valid parameters, all depths, all pairs of times", "why_tests_cant": "Monotonicity and bounds over all times", "anchors": ["geotecha/consolidation/dengetal2013and2014.py:dengetal2013"]}
{"id": "C129", "title": "dengetal2013 answers with numbers or refuses", "statement": "For every depth in the layer, and every drain parameters that are not refused with ValueError, dengetal2013 returns a number. (False of the code: with A3 > 0 the value at the top is nan, with A2 = A1 the value at the bottom is nan, and with A2 < 0 it returns None; these are exactly the exceptions for valid soil parameters.)", "quantifier": "all depths in the layer, all drain parameters", "why_tests_cant": "The exceptions are single points of a continuum", "anchors": ["geotecha/consolidation/dengetal2013and2014.py:dengetal2013"]}
{"id": "C130", "title": "dengetal2014 solves the coupled equations of soil and drain", "statement": "For every number of terms, the average pore pressure returned by dengetal2014 belongs to a pair (soil pressure, drain pressure) that obeys the coupled equations of radial flow into a clogging drain with pervious top and impervious bottom and that starts at the truncated series of the constant ui. (For the default A3 = 0 this is false: the values do not depend on time.)", "quantifier": "all valid parameters, all numbers of terms, all lists of depths and times", "why_tests_cant": "A coupled system of partial differential equations has to hold at all depths and times", "anchors": ["geotecha/consolidation/dengetal2013and2014.py:dengetal2014"]}
{"id": "C131", "title": "Layered consolidation: pore pressures solve the layered equations", "statement": "For every layered column whose ends are drained (0) or impervious (1), every load history, every list of depths and times and every number of terms, if SchiffmanAndStein1970 produces pore pressures they are the values of a solution of the one-dimensional consolidation equations of the layers (equal pressure and flow at interfaces, documented conditions at top and bottom) driven by the load, of which a share S of depth goes into the pore water; S is the best approximation of 1 by the modes used. (False of the code for columns with matrix entries below 1e-10, which are set to zero.)", "quantifier": "all numbers of layers, positive properties, load histories with ramps and steps, depths, times, numbers of terms and solvers that return a root of the bracket", "why_tests_cant": "Solving a partial differential equation with interface conditions is a statement about all depths and times; orthogonality of the error to every mode is an integral identity for any number of layers", "anchors": ["geotecha/consolidation/schiffmanandstein1970.py:SchiffmanAndStein1970", "geotecha/mathematics/root_finding.py:find_n_roots"]}
{"id": "C132", "title": "Layered consolidation: average and settlement agree with the pore pressures", "statement": "For the same inputs, avp is the mean over the depth of the same pore pressure that por reports, and set is the compression (sum of mv times load minus pore pressure over the depth) under the load just before the time.", "quantifier": "same inputs as C131, without entries below 1e-10", "why_tests_cant": "Three separate closed formulas must agree for every number of layers and terms", "anchors": ["geotecha/consolidation/schiffmanandstein1970.py:SchiffmanAndStein1970._calc_settle_and_avp"]}
{"id": "C133", "title": "Layered consolidation: settlement is monotone and bounded", "statement": "Under a load that never decreases, the settlements at times without a step never decrease, are at least the settlement of the initial load and never exceed the final settlement of the load of the moment.", "quantifier": "same inputs as C132 with nondecreasing loads, all pairs of times, all numbers of terms", "why_tests_cant": "Monotonicity for a truncated series needs Bessel's inequality for any set of modes", "anchors": ["geotecha/consolidation/schiffmanandstein1970.py:SchiffmanAndStein1970"]}
{"id": "C134", "title": "Layered consolidation: slow modes below the start of the search are lost", "statement": "If the column has a mode that decays slower than cv (0.1/H^2)^2 then, whatever the number of terms, the share of the settlement that belongs to this mode appears at once: the reported settlement is at all times at least that share of the load. (Thin layers: H below about 0.06.)", "quantifier": "same inputs as C133, all modes of the column", "why_tests_cant": "The effect depends on the start point of a root search in relation to all eigenvalues", "anchors": ["geotecha/consolidation/schiffmanandstein1970.py:SchiffmanAndStein1970._find_beta"]}
{"id": "C135", "title": "Layered consolidation: documented boundary conditions are available", "statement": "Each documented boundary condition (0 drained, 1 impervious, 3 impeded) at top and bottom gives a result, other values raise ValueError. (False of the code: an impervious top over a uniform soil in any number of layers never gives a result, 3 always ends in an unrelated error, an unknown value at the top gives AttributeError.)", "quantifier": "all columns, all boundary codes, all solvers", "why_tests_cant": "Failure for all uniform columns with any number of layers is a singular matrix of any size", "anchors": ["geotecha/consolidation/schiffmanandstein1970.py:SchiffmanAndStein1970._check_input_attributes"]}
{"id": "C136", "title": "Layered consolidation: the settlement file contains the settlement", "statement": "The data saved under the names of the average pore pressure and the settlement are the average pore pressure and the settlement. (False of the code: both are the average pore pressure.)", "quantifier": "all runs that give a result", "why_tests_cant": "A saved file is not looked at by the tests and the two arrays have equal shapes", "anchors": ["geotecha/consolidation/schiffmanandstein1970.py:SchiffmanAndStein1970.make_output"]}
{"id": "C137", "title": "cosenzaandkorosak2014: pore pressures at the times asked for", "statement": "The pore pressures are returned at the times tpor if tpor is given. (False of the code: tpor never has an effect, the pore pressures are at the times t, with a different shape.)", "quantifier": "all depths, times, tpor and parameters", "why_tests_cant": "Independence of an argument is a statement about all its values", "anchors": ["geotecha/consolidation/cosenzaandkorosak2014.py:cosenzaandkorosak2014"]}
{"id": "C138", "title": "cosenzaandkorosak2014: the soil properties matter", "statement": "The rate of consolidation is governed by kv/(mv gamw L^2). (False of the code: for every nonzero L, mv, gamw the result is that of the default soil at depths z/L, whatever kv, mv, gamw are.)", "quantifier": "all parameters, depths and times", "why_tests_cant": "Independence of arguments over a continuum", "anchors": ["geotecha/consolidation/cosenzaandkorosak2014.py:cosenzaandkorosak2014"]}
{"id": "C139", "title": "cosenzaandkorosak2014: drained ends, symmetry, refusal of time zero", "statement": "The pore pressure is zero at depths 0 and L and symmetric about the middle at all times; a ValueError is raised exactly if a time is zero, and a ZeroDivisionError exactly if L, mv or gamw is zero.", "quantifier": "all parameters, all numbers of terms, all depths and times", "why_tests_cant": "Symmetry must hold for all depths and any number of terms, whatever the numerical inverse Laplace transform gives", "anchors": ["geotecha/consolidation/cosenzaandkorosak2014.py:cosenzaandkorosak2014", "geotecha/mathematics/laplace.py:Talbot"]}
{"id": "C140", "title": "cosenzaandkorosak2014: degree of consolidation agrees with the pore pressures", "statement": "The mean pore pressure over the layer is ui (1 - doc), and doc is one minus the series of relaxations that solve the fractional equation with Terzaghi's eigenvalues. (False of the code: the mean of the returned pore pressures is exactly half of that, and the eigenvalues used are (2j+1) pi.)", "quantifier": "all parameters, all numbers of terms, all times", "why_tests_cant": "An identity between an integral over all depths and a second series", "anchors": ["geotecha/consolidation/cosenzaandkorosak2014.py:cosenzaandkorosak2014"]}
{"id": "C141", "title": "zhuandyin2012: the pore pressures are those of a solution of the consolidation equation with depth-dependent properties", "statement": "For valid arguments every call of zhuandyin2012 that returns gives pore pressures equal to ui times a solution of (kv/gamw u')' = mv u_t with kv = kv0 (1+alpha z/H)^p, mv = mv0 (1+alpha z/H)^q, zero at the drained ends and with no flow at an impervious bottom; it starts at the best approximation of the uniform initial pressure by nterms true modes of the soil", "quantifier": "every alpha > -1, alpha not 0, p, q with p-q not 2 and q not -1, both drainage conditions, every number of terms, all depths and times, every root solver that keeps the bracket contract", "why_tests_cant": "the identity between the Bessel-function series and the differential equation must hold for all real exponents; tests compare a few printed digits", "anchors": ["geotecha/consolidation/zhuandyin2012.py:zhuandyin2012"]}
{"id": "C142", "title": "zhuandyin2012: settlement and degree of consolidation are the integrals of the returned pore pressures", "statement": "settle is the integral over the layer of mv (ui - u), with the pore pressure u that por shows; doc is that integral over its final value", "quantifier": "as C141", "why_tests_cant": "closed-form coefficients against integrals of Bessel functions, for all exponents and both drainage conditions", "anchors": ["geotecha/consolidation/zhuandyin2012.py:zhuandyin2012"]}
{"id": "C143", "title": "zhuandyin2012: the degree of consolidation lies between 0 and 1 and never decreases", "statement": "From time 0 on doc is between 0 and 1 and non-decreasing in time, for every number of terms", "quantifier": "as C141; all pairs of non-negative times", "why_tests_cant": "a truncated series need not keep bounds; it must hold for every truncation and every pair of times", "anchors": ["geotecha/consolidation/zhuandyin2012.py:zhuandyin2012"]}
{"id": "C144", "title": "zhuandyin2012: slow modes below the start of the root search are counted as settled at time 0", "statement": "Every mode of the soil with rate at most cv0 ((2-n) alpha/(2H))^2 0.001^2 is missed by the root search; doc is at least the share of that mode at all times, time 0 included", "quantifier": "as C141; every mode of the soil with such a rate", "why_tests_cant": "for every parameter set and every solver; a test sees one curve", "anchors": ["geotecha/consolidation/zhuandyin2012.py:zhuandyin2012", "geotecha/mathematics/root_finding.py:find_n_roots"]}
{"id": "C145", "title": "zhuandyin2012: arguments that are refused", "statement": "p - q = 2 raises ZeroDivisionError, drn other than 0 or 1 raises UnboundLocalError, nterms = 0 raises IndexError, and with q = -1 (which the documentation allows), alpha = 0 or mv0 gamw = 0 the call never returns a result", "quantifier": "all arguments", "why_tests_cant": "every argument combination of these kinds", "anchors": ["geotecha/consolidation/zhuandyin2012.py:zhuandyin2012"]}
{"id": "C146", "title": "shanetal2012: which arguments are refused", "statement": "A ValueError is raised exactly if some load dictionary has an unknown type or lacks a parameter of its type; otherwise Cw*Ca = 1 makes the matrix inversion fail, H = 0 is a ZeroDivisionError and a drn other than 0 and 1 an UnboundLocalError; otherwise the result has a row per depth and a column per time for water and for air", "quantifier": "all dictionaries, soil parameters, depths and times", "why_tests_cant": "The refusals are about all dictionaries and all values of drn, not a few", "anchors": ["geotecha/consolidation/shanetal2012.py:shanetal2012"]}
{"id": "C147", "title": "shanetal2012 returns the spectral Galerkin solution of the coupled equations", "statement": "For every soil, drainage condition, initial pressures, total stress and boundary histories that are not resonant with a mode, the water and air pressures returned are the unique combination of a linear function and the first nterms eigenfunctions that meets the boundary conditions exactly and has residuals of both equations and of the initial condition orthogonal to those eigenfunctions", "quantifier": "all arguments, all depths and times, all numbers of terms, all eigenvalue routines that are right", "why_tests_cant": "Whether the closed forms of modes, loads and homogenising terms fit together can only be sampled by comparing numbers", "anchors": ["geotecha/consolidation/shanetal2012.py:shanetal2012"]}
{"id": "C148", "title": "shanetal2012: the result does not depend on the eigenvalue routine", "statement": "Two eigenvalue routines that are both right but order or scale the eigenvectors differently give the same pressures", "quantifier": "all pairs of right routines, all arguments", "why_tests_cant": "numpy gives one ordering and scaling per platform", "anchors": ["geotecha/consolidation/shanetal2012.py:shanetal2012"]}
{"id": "C149", "title": "shanetal2012: meaning of an 'exp' load", "statement": "The documentation says {'type': 'exp', 'q0': q0, 'b': b} is q0*exp(-b*t): the pressure imposed is q0*(1 - exp(-b*t)) at every time", "quantifier": "all q0, b, times", "why_tests_cant": "The two agree at one time and for q0 = 0", "anchors": ["geotecha/consolidation/shanetal2012.py:shanetal2012"]}
{"id": "C150", "title": "shanetal2012: everything dissipates", "statement": "In a physical soil with loads that settle, both pressures at every depth tend to the straight line set by the final boundary values, whatever the initial pressures and the total stress", "quantifier": "all soils with negative diffusivities and coupling below 1, all depths, all numbers of terms", "why_tests_cant": "A limit over infinite time", "anchors": ["geotecha/consolidation/shanetal2012.py:shanetal2012"]}
{"id": "C151", "title": "shanetal2012: the closed-form eigenvalues are right", "statement": "The analytical eigenvalues and eigenvectors given in the code are those of the matrix the code passes to numpy, for positive coupling other than 1 and diffusivities of the same sign", "quantifier": "all soil parameters", "why_tests_cant": "An identity in four real parameters with a square root", "anchors": ["geotecha/consolidation/shanetal2012.py:shanetal2012"]}
{"id": "C152", "title": "Non-Darcian series: numbers and arrays agree", "statement": "The series functions behind the non-Darcian smear parameters give the same value whether called with numbers (recursion) or arrays (series loop), for every positive number of terms; radii below the drain, drain ratios not above 1 and exponents not above 1 are refused and nothing else is; with zero terms an array call gives 0 while a number call raises IndexError", "quantifier": "every radius, drain ratio, exponent and number of terms", "why_tests_cant": "two different algorithms must agree for all real arguments and every number of terms", "anchors": ["geotecha/consolidation/smear_zones.py::_g", "geotecha/consolidation/smear_zones.py::_gbar"]}
{"id": "C153", "title": "Non-Darcian series are the antiderivatives they stand for", "statement": "_g is an antiderivative of the gradient of power-law radial flow with the binomial factor cut after nterms terms, _gbar one of y times _g; the gradient is never underestimated and overestimated by at most (y/n)^(2 nterms) nterms^(-1/nflow); differences of _g converge to the integral of the exact gradient", "quantifier": "every radius between drain and boundary, drain ratio, exponent above 1 and number of terms", "why_tests_cant": "truncation error must be bounded for all arguments and all numbers of terms", "anchors": ["geotecha/consolidation/smear_zones.py::_g", "geotecha/consolidation/smear_zones.py::_gbar"]}
{"id": "C154", "title": "Non-Darcian beta is the mean head of power-law flow", "statement": "non_darcy_beta_ideal, non_darcy_beta_constant and non_darcy_beta_piecewise_constant give the mean over the annulus of the normalised head of power-law equal-strain radial flow for their permeability profile (with the truncated gradient exactly), never less than the exact value and above it by at most an explicit bound that vanishes as nterms grows; inconsistent arguments are refused, except that non_darcy_beta_constant accepts a smear zone reaching beyond the boundary and then gives a smaller beta", "quantifier": "every drain ratio, number of zones, zone radii and permeability ratios, exponent above 1, number of terms", "why_tests_cant": "holds for unboundedly many zones and terms and all real values", "anchors": ["geotecha/consolidation/smear_zones.py::non_darcy_beta_ideal", "geotecha/consolidation/smear_zones.py::non_darcy_beta_constant", "geotecha/consolidation/smear_zones.py::non_darcy_beta_piecewise_constant"]}
{"id": "C155", "title": "Non-Darcian pore pressure distribution", "statement": "non_darcy_u_piecewise_constant evaluates one distribution at all radii between drain and boundary: continuous across zones, with the requested mean, equal at the drain to the drain pressure plus well loss, increments following the gradient, strictly increasing outwards when the mean exceeds the drain pressure, and converging to the exact power-law distribution as nterms grows; radii outside are refused", "quantifier": "every zone list, radius, mean, drain pressure, well resistance, exponent and number of terms", "why_tests_cant": "continuity, mean and monotonicity are statements about all radii", "anchors": ["geotecha/consolidation/smear_zones.py::non_darcy_u_piecewise_constant"]}
{"id": "C156", "title": "Non-Darcian beta: reductions and orderings", "statement": "Without disturbance or extent the constant smear zone is the ideal case; it is also the two-zone piecewise case; splitting a zone changes nothing; beta is positive, grows with every permeability ratio, never grows with the number of terms, and as the exponent goes to 1 tends exactly to the Darcian mu for any nterms from 2 on", "quantifier": "every profile, exponent and number of terms", "why_tests_cant": "orderings and limits over all real parameters", "anchors": ["geotecha/consolidation/smear_zones.py::non_darcy_beta_ideal", "geotecha/consolidation/smear_zones.py::non_darcy_beta_constant", "geotecha/consolidation/smear_zones.py::non_darcy_beta_piecewise_constant", "geotecha/consolidation/smear_zones.py::mu_piecewise_constant"]}
{"id": "C157", "title": "Non-Darcian drain eta belongs to the power flow law", "statement": "The eta formula with the exact beta makes strain rate = (mean u - uw)^nflow k/gamw eta for every equal-strain power-law radial flow; non_darcy_drain_eta with n a number given by keyword or first gives a positive value at most that one and converging to it with nterms; nflow must be a keyword, and with the piecewise beta and radii as first positional argument a list raises TypeError and an array gives one value per zone of which only the last is right", "quantifier": "every geometry, permeability profile, flow exponent, limiting gradient and strain rate", "why_tests_cant": "the physical law quantifies over all pressure distributions", "anchors": ["geotecha/consolidation/smear_zones.py::non_darcy_drain_eta"]}
{"id": "C158", "title": "Nogami and Li: pore pressure around a drain", "statement": "With a vertical drain, as long as no eigenvalue pair makes a depth function straight in a layer, the pore pressures returned are those of one solution of the consolidation equation of the layered ring of soil (both flow directions, drained inner face, closed outer face, boundary and interface conditions) under the load, with the load entering through the best approximation of 1 by the modes found, seen at rcalc or averaged over the ring", "quantifier": "every soil profile, drain, load history, output depth and time, number of terms and search setting", "why_tests_cant": "the equation must hold at every point and time and the modes be orthogonal for every profile", "anchors": ["geotecha/consolidation/nogamiandli2003.py::NogamiAndLi2003.make_output", "geotecha/consolidation/nogamiandli2003.py::NogamiAndLi2003._calc_por", "geotecha/consolidation/nogamiandli2003.py::NogamiAndLi2003._calc_Cmn"]}
{"id": "C159", "title": "Nogami and Li without a drain", "statement": "Without kh, r0, r1, nh the pore pressure, its average and the settlement are those of one solution of the layered one-dimensional equation, whose initial part is the best approximation of 1 by increasing modes; no condition on eigenvalues is needed", "quantifier": "every soil profile, load history, depth and time, number of terms", "why_tests_cant": "the equation must hold everywhere for every profile", "anchors": ["geotecha/consolidation/nogamiandli2003.py::NogamiAndLi2003.make_output", "geotecha/consolidation/nogamiandli2003.py::NogamiAndLi2003._calc_avp"]}
{"id": "C160", "title": "Nogami and Li: average and settlement belong to the same solution", "statement": "With a drain avp is the mean over the depth and set the compressibility-weighted total of load minus pressure of the very solution por shows, at rcalc or averaged over the ring", "quantifier": "every soil profile, drain, load history and time", "why_tests_cant": "equality of integrals for every profile", "anchors": ["geotecha/consolidation/nogamiandli2003.py::NogamiAndLi2003._calc_avp", "geotecha/consolidation/nogamiandli2003.py::NogamiAndLi2003.un_normalised_average"]}
{"id": "C161", "title": "Nogami and Li: settlement never goes back", "statement": "Under a load that never falls the settlement of the ring never falls and stays between that of the load before and that of the full load, however many terms are used (rcalc not given)", "quantifier": "every profile, load that never falls, pair of times, numbers of terms", "why_tests_cant": "monotonicity over all pairs of times", "anchors": ["geotecha/consolidation/nogamiandli2003.py::NogamiAndLi2003._calc_avp", "geotecha/consolidation/nogamiandli2003.py::NogamiAndLi2003._calc_Tm"]}
{"id": "C162", "title": "Nogami and Li: missing nv and odd boundary conditions", "statement": "nv has no default although documented as 5: the run ends in TypeError; bctop or bcbot other than 0 and 1 end in AttributeError; with a drain there is never a result", "quantifier": "every input", "why_tests_cant": "holds for every other input", "anchors": ["geotecha/consolidation/nogamiandli2003.py::NogamiAndLi2003._setup", "geotecha/consolidation/nogamiandli2003.py::NogamiAndLi2003._calc_derived_properties"]}
{"id": "C163", "title": "Nogami and Li: one straight depth function makes all averages nan", "statement": "Either no eigenvalue pair found makes a depth function straight, or every entry of avp and set is nan; for one layer with a drained top the characteristic curve is zero at the pair that makes it straight although no such mode exists, and there are sensible runs that end so", "quantifier": "every input and outcome of the search", "why_tests_cant": "quantifies over all searches and solver results", "anchors": ["geotecha/consolidation/nogamiandli2003.py::NogamiAndLi2003._vertical_characteristic_curve", "geotecha/consolidation/nogamiandli2003.py::NogamiAndLi2003._calc_avp"]}
{"id": "C164", "title": "Nogami and Li: saved settlements are settlements", "statement": "Expected: what is saved as settlement are the settlements; the code saves the average pore pressures, and there is a run where they differ", "quantifier": "every run", "why_tests_cant": "quantifies over all runs", "anchors": ["geotecha/consolidation/nogamiandli2003.py::NogamiAndLi2003.make_output"]}
{"id": "C165", "title": "Ding et al. beam: the deflection obeys the equation of motion", "statement": "For a simply supported DingEtAl2012 beam created from physical values, the raw deflection returned after a run starts from rest at the first requested time, is simply supported, and satisfies the Galerkin equations of rho A w_tt + mu w_t + k1 w + k3 w^3 + E I w_xxxx = F delta(x - v t) in physical units for every mode, the cubic term being integrated by the object's quadrature rule.", "quantifier": "all physical constants, numbers of terms, quadrature rules, run times and exact solutions of the vector field", "why_tests_cant": "The normalisation, the mode coefficients and the factor BC_coeff only fit together for every parameter set if the algebra is right; a test fixes one parameter set.", "anchors": ["geotecha/beam_on_foundation/dingetal2012.py:DingEtAl2012.__init__", "geotecha/beam_on_foundation/dingetal2012.py:DingEtAl2012.vectorfield", "geotecha/beam_on_foundation/dingetal2012.py:DingEtAl2012.calulate_qk"]}
{"id": "C166", "title": "Ding et al. beam: energy balance", "statement": "Along every run the energy of beam and foundation (kinetic, bending, linear springs, cubic springs by the quadrature) changes at exactly the rate of the power of the moving force minus the dissipation in the dashpots.", "quantifier": "all physical constants, quadrature rules, solutions and times", "why_tests_cant": "A rate identity along all solutions of a nonlinear system.", "anchors": ["geotecha/beam_on_foundation/dingetal2012.py:DingEtAl2012.vectorfield"]}
{"id": "C167", "title": "Ding et al. beam: quadrature is exact for polynomials", "statement": "For simply supported ends and nquad other than 1 the constructor succeeds, the nodes increase from 0 to 1, and the solved weights integrate every polynomial of degree below nquad exactly; nquad=1 gives nan accelerations and nquad=None makes every evaluation fail with AttributeError.", "quantifier": "all nquad, all polynomials", "why_tests_cant": "Solvability of the Vandermonde system for every size.", "anchors": ["geotecha/beam_on_foundation/dingetal2012.py:DingEtAl2012.__init__"]}
{"id": "C168", "title": "Ding et al. beam: clamped and free beams cannot be run", "statement": "With BC='CC' or 'FF' the constructor raises for every nquad but 2 and None (LinAlgError from three points on, IndexError below two); nquad=None fails at the first evaluation; nquad=2 gives nodes 0.0001, 0 and weights 5000, -4999, and for free ends every acceleration is nan.", "quantifier": "all nquad, all coefficients, states and times", "why_tests_cant": "A singular matrix for every size.", "anchors": ["geotecha/beam_on_foundation/dingetal2012.py:DingEtAl2012.__init__", "geotecha/beam_on_foundation/dingetal2012.py:DingEtAl2012.phiFF"]}
{"id": "C169", "title": "Ding et al. beam: clamped and free shapes", "statement": "At every positive root of 1 - cos b cosh b, phiCC is a vibration shape clamped at both ends and phiFF one free at both ends (fourth derivative b^4 times itself), both with mean square 1, so that the coefficient BC_coeff=1 is right; shapes of different roots are orthogonal.", "quantifier": "all roots", "why_tests_cant": "Holds for infinitely many roots.", "anchors": ["geotecha/beam_on_foundation/dingetal2012.py:DingEtAl2012.phiCC", "geotecha/beam_on_foundation/dingetal2012.py:DingEtAl2012.phiFF"]}
{"id": "C170", "title": "Ding et al. beam: what wofx returns", "statement": "wofx returns one row per position and one entry per time, of normalised deflections if normalise_w is True and raw ones otherwise; a single position gives one row.", "quantifier": "all positions, times, states and lengths", "why_tests_cant": "Quantified over all inputs; in the code True and False both return raw deflections, only None returns normalised ones, and without L the default fails.", "anchors": ["geotecha/beam_on_foundation/dingetal2012.py:DingEtAl2012.wofx"]}
{"id": "C171", "title": "Ding et al. beam: the force acts only while on the beam", "statement": "The moving force acts at v t while 0 <= v t <= L, and not at all after it has left the beam.", "quantifier": "all times, speeds, modes", "why_tests_cant": "All times; in the code after leaving the far end the force comes back as a force -F at 2L - v t.", "anchors": ["geotecha/beam_on_foundation/dingetal2012.py:DingEtAl2012.vectorfield"]}
{"id": "C172", "title": "Ding et al. beam: quadrature weights are positive", "statement": "For every nquad from two on, the weights solved for with simply supported ends are positive and add up to 1; hence with k1, k3 >= 0 the energy of the beam and foundation is never negative. Such weights exist for every nquad from two on.", "quantifier": "all nquad, all deflections", "why_tests_cant": "The weights are the solution of a linear system of every size.", "anchors": ["geotecha/beam_on_foundation/dingetal2012.py:DingEtAl2012.__init__"]}
{"id": "C173", "title": "Vehicles: the harmonic description of a moving vehicle", "statement": "For every vehicle of positive beam length, convert_to_specbeam returns for every axle a load history that is the axle's force while it is on the beam and zero otherwise, together with an angular frequency and phase whose argument at time t is the position of the axle over the beam length; a zero velocity raises; keyword arguments replace the vehicle's own values.", "quantifier": "all vehicles, all times, all modes", "why_tests_cant": "Holds for every time and axle layout.", "anchors": ["geotecha/beam_on_foundation/specbeam.py:MovingPointLoads.convert_to_specbeam"]}
{"id": "C174", "title": "Vehicles: the axles on the beam at a time", "statement": "point_loads_on_beam(t) returns the position of every axle at time t and its force, zero while the axle is off the beam.", "quantifier": "all vehicles, all times", "why_tests_cant": "Holds for every time; the code ignores t0 (and x0 for a vehicle going left), so that the positions are off.", "anchors": ["geotecha/beam_on_foundation/specbeam.py:MovingPointLoads.point_loads_on_beam"]}
{"id": "C175", "title": "Vehicles: when the axles pass a point", "statement": "time_axles_pass_beam_point(x) returns for every axle the one time at which the axle is at x.", "quantifier": "all vehicles, all points", "why_tests_cant": "Holds for every vehicle of either direction.", "anchors": ["geotecha/beam_on_foundation/specbeam.py:MovingPointLoads.time_axles_pass_beam_point"]}
{"id": "C176", "title": "SpecBeam: what the constructor accepts", "statement": "Only simply supported ends are accepted; the analytical solution is accepted exactly when the beam is linear. (The code refuses k3=0 alone or k3_norm=0 alone: both must be given or neither.)", "quantifier": "every combination of constructor arguments, any number of terms", "why_tests_cant": "The acceptance condition is about all argument combinations", "anchors": ["geotecha/beam_on_foundation/specbeam.py:SpecBeam.__init__"]}
{"id": "C177", "title": "SpecBeam: vehicles given in physical units are the same vehicles in normalised units", "statement": "For every list of vehicles (any number of axles, either direction, any offsets, start times, start positions, lengths, with or without the optional lists) the stored normalised vehicles have axle by axle the force over E A and, at every time, the position over L, and are on the beam at the same times; vehicles given in normalised units are stored as given.", "quantifier": "all vehicles, all positive reference values, all times", "why_tests_cant": "Positions at every real time for every vehicle list cannot be enumerated", "anchors": ["geotecha/beam_on_foundation/specbeam.py:SpecBeam.__init__", "geotecha/beam_on_foundation/specbeam.py:MovingPointLoads"]}
{"id": "C178", "title": "SpecBeam: stationary loads mean the same force in normalised units", "statement": "For every list of stationary loads with piecewise linear histories and oscillation (omega, phase) the generalised force of the stored loads at every time is that of the physical forces over E A at x/L. (The code divides the phase by E A: exact error given.)", "quantifier": "all loads and histories, all times, all modes", "why_tests_cant": "All histories and times", "anchors": ["geotecha/beam_on_foundation/specbeam.py:SpecBeam.__init__", "geotecha/beam_on_foundation/specbeam.py:SpecBeam.vectorfield"]}
{"id": "C179", "title": "SpecBeam: the numerical solution satisfies the equation of motion of the beam with varying properties", "statement": "A run gives a deflection that is simply supported, at rest at the first time, and satisfies in every mode the Galerkin equations with the profiles of E I, rho A, mu, k1, k3, under all vehicles and stationary loads. (In the code k3bar is never used: the cubic spring follows k1bar; vehicles and phases as in C174, C178.)", "quantifier": "all physical parameters, profiles, vehicles, loads, number of modes, times inside the run", "why_tests_cant": "A statement about every time of every run", "anchors": ["geotecha/beam_on_foundation/specbeam.py:SpecBeam.vectorfield", "geotecha/beam_on_foundation/specbeam.py:SpecBeam.time_independant_matrices"]}
{"id": "C180", "title": "SpecBeam: power balance", "statement": "The energy of beam and foundation with the profiles (kinetic, bending, linear and cubic springs) changes at the rate power of all forces minus dissipation; after all loads have gone it never grows.", "quantifier": "all runs of the numerical solution with physical input and proper profiles", "why_tests_cant": "Holds at every instant of every run", "anchors": ["geotecha/beam_on_foundation/specbeam.py:SpecBeam.vectorfield", "geotecha/beam_on_foundation/specbeam.py:SpecBeam.time_independant_matrices"]}
{"id": "C181", "title": "SpecBeam: wofx returns the deflection", "statement": "With normalise_w=False the physical deflection at the requested positions and times, with True the deflection over L; raw and normalised positions are interchangeable; a single position gives one row.", "quantifier": "all positions, all times, all coefficient histories", "why_tests_cant": "All inputs", "anchors": ["geotecha/beam_on_foundation/specbeam.py:SpecBeam.wofx"]}
{"id": "C182", "title": "SpecBeam and DingEtAl2012 agree on a uniform beam", "statement": "With default profiles and one force moving right, while the force is on the beam, the two classes integrate the same system: the vector fields agree entry by entry for every state.", "quantifier": "all physical parameters, numbers of terms and quadrature points, states and times", "why_tests_cant": "All states", "anchors": ["geotecha/beam_on_foundation/specbeam.py:SpecBeam.vectorfield", "geotecha/beam_on_foundation/dingetal2012.py:DingEtAl2012.vectorfield"]}
{"id": "C183", "title": "Beam runs exist step by step and are unique", "statement": "Two exact runs over the same times from the same input agree at every time (both beam classes, all end conditions); with mass that is nowhere zero SpecBeam's vector field never fails. (nquad=None, documented to use adaptive quadrature, always raises AttributeError.)", "quantifier": "all beams, loads, profiles, states, times", "why_tests_cant": "Uniqueness over all trajectories", "anchors": ["geotecha/beam_on_foundation/specbeam.py:SpecBeam.vectorfield", "geotecha/beam_on_foundation/specbeam.py:SpecBeam.calulate_qk", "geotecha/beam_on_foundation/dingetal2012.py:DingEtAl2012.calulate_qk"]}
{"id": "C184", "title": "Load integrals with complex eigenvalues", "statement": "With complex eigenvalues Eload_linear and Eload_sinlinear return the convolution of the load history (times the sine) with exp(-dT eig (t-tau)) exactly, real and imaginary part; Eload_coslinear, documented to take them too, raises TypeError as soon as a time is after the start of the load.", "quantifier": "all piecewise linear histories, frequencies, phases, times, complex eigenvalues with dT eig not zero and not plus or minus i omega", "why_tests_cant": "Integrals over a continuum of load histories and complex eigenvalues", "anchors": ["geotecha/speccon/integrals.py:Eload_linear", "geotecha/speccon/integrals.py:Eload_sinlinear", "geotecha/speccon/integrals.py:Eload_coslinear"]}
{"id": "C185", "title": "SpecBeam: the analytical solution solves the equation of motion and agrees with the numerical one", "statement": "With use_analytical=True the object is the one of the numerical solution with k3=0; whatever eigenvectors np.linalg.eig chooses, the imaginary parts cancel exactly (the check never fires) and the table is that of coefficients starting at rest and solving the equations of motion at every time at which the loads are continuous; for vehicles starting at time zero and continuous stationary histories it equals the table of the numerical run, which therefore exists. (A harmonic stationary load on a beam with a non-real eigenvalue yields no table.)", "quantifier": "all beams, profiles, numbers of terms, vehicles, stationary loads, positions, times, and all choices of eigenvectors", "why_tests_cant": "All eigenvector choices and all trajectories", "anchors": ["geotecha/beam_on_foundation/specbeam.py:SpecBeam.runme", "geotecha/beam_on_foundation/specbeam.py:SpecBeam._make_eigs_and_v", "geotecha/beam_on_foundation/specbeam.py:SpecBeam._make_defl", "geotecha/speccon/speccon1d.py:dim1sin_E_Igamv_the_mvpl", "geotecha/speccon/speccon1d.py:dim1sin_E_Igamv_the_deltamag_linear"]}
{"id": "C186", "title": "SpecBeam: damped beams are stable and never resonant", "statement": "If mass, bending stiffness and damping are everywhere positive every eigenvalue of the analytical solution has a positive real part, so nothing in the solution grows, and no vehicle speed is resonant.", "quantifier": "all positive profiles, numbers of terms and vehicle speeds", "why_tests_cant": "All profiles and sizes of matrices", "anchors": ["geotecha/beam_on_foundation/specbeam.py:SpecBeam._make_eigs_and_v", "geotecha/beam_on_foundation/specbeam.py:SpecBeam.time_independant_matrices"]}
{"id": "C187", "title": "EPUS: invariants of every history of drying, wetting, loading and unloading", "statement": "Along every history of Drying, Wetting, Loading and Unloading to arbitrary values the pore groups keep their number, order and compression indexes, no yield stress ever decreases, an air-entrapped flag is never cleared, volumes stay non-negative, the reference saturation tables are untouched and a reported input error stays reported.", "quantifier": "all soils, initial states and finite histories of operations", "why_tests_cant": "Histories are unbounded; tests run a few stress paths", "anchors": ["geotecha/constitutive_models/epus.py:EPUS.Drying", "geotecha/constitutive_models/epus.py:EPUS.Wetting", "geotecha/constitutive_models/epus.py:EPUS.Loading", "geotecha/constitutive_models/epus.py:EPUS.Unloading"]}
{"id": "C188", "title": "EPUS: which pore groups empty and fill", "statement": "Drying empties exactly the filled groups whose current air entry value does not exceed the new suction and fills nothing; wetting fills exactly the dry groups whose water entry value is at least the new suction and empties nothing; loading fills exactly the dry groups whose water entry value at the new stress exceeds the suction and empties nothing; unloading changes no filling and no yield stress. A history without wetting and loading never fills a group, one without drying never empties one.", "quantifier": "all soils, states, targets and histories", "why_tests_cant": "All states and histories", "anchors": ["geotecha/constitutive_models/epus.py:EPUS.Drying", "geotecha/constitutive_models/epus.py:EPUS.Wetting", "geotecha/constitutive_models/epus.py:EPUS.Loading", "geotecha/constitutive_models/epus.py:EPUS.Unloading"]}
{"id": "C189", "title": "EPUS: the volume of a filled pore group is a function of state", "statement": "After any non-empty history the volume of every water-filled pore group depends on the past only through its yield stress: it is the closed-form virgin/rebound volume at the current sum of suction and net stress.", "quantifier": "all soils, states and non-empty histories", "why_tests_cant": "Histories are unbounded", "anchors": ["geotecha/constitutive_models/epus.py:EPUS.Changevolume", "geotecha/constitutive_models/epus.py:EPUS.Drying", "geotecha/constitutive_models/epus.py:EPUS.Loading"]}
{"id": "C190", "title": "EPUS: directions of volume change", "statement": "Drying to a larger suction enlarges no pore group; loading a saturated soil to a larger stress enlarges none; unloading to a smaller stress shrinks none; wetting a saturated soil inside its yield stresses to a smaller suction shrinks none.", "quantifier": "all soils with ordered indexes and all states reached by at least one operation", "why_tests_cant": "All states", "anchors": ["geotecha/constitutive_models/epus.py:EPUS.Drying", "geotecha/constitutive_models/epus.py:EPUS.Loading", "geotecha/constitutive_models/epus.py:EPUS.Unloading", "geotecha/constitutive_models/epus.py:EPUS.Wetting"]}
{"id": "C191", "title": "EPUS: elastic cycles close and subdivision does not matter", "statement": "Unloading to any net stress and reloading to the stress one came from returns every filled pore group that was inside its yield stress exactly, so a saturated soil inside yield returns to its void ratio; for a saturated soil loading in two stages equals loading at once; of two unloadings in a row only the second counts.", "quantifier": "all soils, settled states and stress values", "why_tests_cant": "All states and stress values", "anchors": ["geotecha/constitutive_models/epus.py:EPUS.Loading", "geotecha/constitutive_models/epus.py:EPUS.Unloading"]}
{"id": "C192", "title": "EPUS: volume of an emptied group, and groups loaded past yield", "statement": "A group emptied by drying gets the volume at the new suction, not at its air entry value: the assignment for emptied groups is overwritten, with exact difference. Loading that fills a dry group can leave it stressed beyond the yield stress it is given.", "quantifier": "all soils, states and suctions; existence for the second part", "why_tests_cant": "The value depends on the step size of the path; a test fixes it", "anchors": ["geotecha/constitutive_models/epus.py:EPUS.Drying", "geotecha/constitutive_models/epus.py:EPUS.Loading"]}
{"id": "C193", "title": "EPUS: calculations complete, except with the documented default logRS", "statement": "From a valid state no history with suctions inside the table range and positive net stresses raises an exception; Calresults completes on every stress path with positive targets in range and a number of points other than 1. With logRS=0, its default, Calresults raises ZeroDivisionError on every path.", "quantifier": "all valid parameters, stress paths and histories", "why_tests_cant": "Absence of exceptions over all histories", "anchors": ["geotecha/constitutive_models/epus.py:EPUS.Calresults", "geotecha/constitutive_models/epus.py:EPUS._Calresults_scalar", "geotecha/constitutive_models/epus.py:EPUS.SlurryPoreSize"]}
{"id": "C194", "title": "EPUS: recorded results are physically in range", "statement": "Whatever the stress path, every recorded point has a non-negative void ratio and water content, a degree of saturation between 0 and 1 and a volumetric water content between 0 and the porosity; along paths of net stress changes only the soil stays exactly saturated.", "quantifier": "all soils with 0<=beta<=1 and Gs>0 and all stress paths", "why_tests_cant": "All paths", "anchors": ["geotecha/constitutive_models/epus.py:EPUS._Calresults_scalar"]}
{"id": "C195", "title": "EPUS: recorded suctions and stresses", "statement": "A stress path is recorded step by step with npp points spaced evenly on a log scale from the value reached before to the target of the step, the other variable held, values of 999999 or more replaced by 999998, starting at suction 10**MinSuction and net stress 10**MinSuction/1000.", "quantifier": "all stress paths and numbers of points", "why_tests_cant": "All paths", "anchors": ["geotecha/constitutive_models/epus.py:EPUS._Calresults_scalar"]}
{"id": "C196", "title": "EPUS: reference saturation tables", "statement": "Both reference tables contain saturations between 0 and 1 whatever they held before. Reading at a tabulated suction returns the tabulated value for the wetting table but the previous entry for the drying table; outside the range it raises IndexError above and silently wraps round below. The reference saturation after drying (wetting) is that of the drying (wetting) table or the smaller (larger) of the two when off the branch, and stays between 0 and 1 along every history.", "quantifier": "all soils, tables, suctions and histories", "why_tests_cant": "All table sizes, suctions and histories", "anchors": ["geotecha/constitutive_models/epus.py:EPUS.DegreeofsaturationSWCC", "geotecha/constitutive_models/epus.py:EPUS.RfSr_value", "geotecha/constitutive_models/epus.py:EPUS.Drying", "geotecha/constitutive_models/epus.py:EPUS.Wetting"]}
{"id": "C197", "title": "EPUS: Calresults is reproducible", "statement": "The results of Calresults, or the exception it raises, do not depend on the reference tables left by earlier calls on the same object.", "quantifier": "all objects, stress paths and earlier calls", "why_tests_cant": "All earlier histories of the object", "anchors": ["geotecha/constitutive_models/epus.py:EPUS.Calresults", "geotecha/constitutive_models/epus.py:EPUS.DegreeofsaturationSWCC"]}
{"id": "C198", "title": "EPUS: the fitted curve and its derivative", "statement": "Wc vanishes at suction 10**6 and is positive and strictly decreasing up to there (for admissible sl); DWc, documented as its derivative, is instead the derivative of (Wc+wr) times the Fredlund-Xing factor and differs from the derivative of Wc.", "quantifier": "all fitting parameters and positive suctions", "why_tests_cant": "All suctions and parameters", "anchors": ["geotecha/constitutive_models/epus.py:EPUS.Wc", "geotecha/constitutive_models/epus.py:EPUS.DWc", "geotecha/constitutive_models/epus.py:CurveFittingSWCC.Wc", "geotecha/constitutive_models/epus.py:CurveFittingSWCC.DWc"]}
{"id": "C199", "title": "EPUS: slurry pore groups and hysteresis", "statement": "The water entry value of every pore group has a closed form; every group drains at or above the suction at which it refills exactly when (logRS-1)log10(2.7)/b is at most logDS; larger air entry values have larger water entry values; every slurry group is filled, with ordered positive indexes, and the ordering survives every history.", "quantifier": "all fitting parameters, pore groups and histories", "why_tests_cant": "All pore groups and parameters", "anchors": ["geotecha/constitutive_models/epus.py:EPUS.SlurryPoreSize", "geotecha/constitutive_models/epus.py:EPUS.DryPoreSize"]}
{"id": "C200", "title": "EPUS: reading stress paths and joining results", "statement": "StressPath accepts a list of dicts exactly when each has vl and name and no negative npp, with defaults ist=True, npp=100, and keeps the order; combine_datapoints joins the arrays of the steps end to end. The name, documented as optional, is required: without it the constructor raises TypeError.", "quantifier": "all lists of step dicts", "why_tests_cant": "All paths", "anchors": ["geotecha/constitutive_models/epus.py:StressPath.__init__", "geotecha/constitutive_models/epus.py:StressPath.combine_datapoints", "geotecha/constitutive_models/epus.py:DataResults.__add__", "geotecha/constitutive_models/epus.py:DataResults.__radd__"]}
{"id": "C201", "title": "EpusProfile: calc completes whether or not it converges", "statement": "With arguments in range calc always completes; a last refinement of fewer than max_iter iterations means the last two stress profiles agree within the tolerances; when max_iter is reached without convergence no error is raised.", "quantifier": "all profiles, tolerances and initial stresses", "why_tests_cant": "All fixed-point iterations", "anchors": ["geotecha/constitutive_models/epus.py:EpusProfile.calc"]}
{"id": "C202", "title": "EpusProfile: refinement lists", "statement": "Npoint_refine and npp_refine have no effect beyond their lengths: every number is refined with nz_refine; the number of refinements is the length of the shortest list.", "quantifier": "all refinement lists", "why_tests_cant": "All lists", "anchors": ["geotecha/constitutive_models/epus.py:EpusProfile.calc", "geotecha/constitutive_models/epus.py:EpusProfile._refine"]}
{"id": "C203", "title": "EpusProfile: depths", "statement": "The depths are strictly increasing from 0 to H and are exactly the regular points together with the points at and beside the water table inside the profile; fewer than two regular points are rejected.", "quantifier": "all profiles and numbers of points", "why_tests_cant": "All sizes", "anchors": ["geotecha/constitutive_models/epus.py:EpusProfile._blank_profile"]}
{"id": "C204", "title": "EpusProfile: the finished profile is consistent", "statement": "After calc every depth has the hydrostatic pore pressure, a saturation in [0,1], a non-negative void ratio and the matching unit weight; the stress is the surcharge plus the trapezoidal integral of that unit weight minus positive pore pressure; unit weights lie between 0 and Gs gamw.", "quantifier": "all profiles for which calc completes", "why_tests_cant": "All profiles", "anchors": ["geotecha/constitutive_models/epus.py:EpusProfile.calc", "geotecha/constitutive_models/epus.py:EpusProfile._update_density", "geotecha/constitutive_models/epus.py:EpusProfile._stress_from_overburden"]}
{"id": "C205", "title": "EpusProfile: reported suction", "statement": "Above the water table the reported suction is hydrostatic (in range); below it is 10**MinSuction or more, never zero.", "quantifier": "all profiles for which calc completes", "why_tests_cant": "All profiles", "anchors": ["geotecha/constitutive_models/epus.py:EpusProfile._e_and_Sr_from_EPUS", "geotecha/constitutive_models/epus.py:EpusProfile.calc"]}
{"id": "C206", "title": "EpusProfile: compression indexes", "statement": "For every depth m1a+m1w=m1s and m2a+m2w=m2s; air indexes vanish where the soil stays saturated. If the pore pressure of some depth lies in [dpsi, dpsi+10**MinSuction) the calculation of all indexes fails, which happens for ordinary profiles; otherwise, in range, it succeeds.", "quantifier": "all profiles, dsig and dpsi", "why_tests_cant": "All profiles", "anchors": ["geotecha/constitutive_models/epus.py:EpusProfile.compression_indexes"]}
{"id": "C207", "title": "EpusProfile: permeabilities", "statement": "Water permeability has one value per depth and equals the saturated one where the suction is at most 10**MinSuction; air permeability lies between zero and the dry permeability, zero where saturated and the dry value where dry.", "quantifier": "all computed profiles and permeability functions", "why_tests_cant": "All profiles", "anchors": ["geotecha/constitutive_models/epus.py:EpusProfile.water_permeability", "geotecha/constitutive_models/epus.py:EpusProfile.air_permeability"]}
{"id": "C208", "title": "Yin and Graham: initial conditions from two of four values", "statement": "Any two of e0, estress0, pstress0, t0 determine the other two: the four values contain the given ones and describe one state (instant time line through (estress0, e0) meets the reference time line at pstress0; t0 accounts for the same distance by creep), and giving any two of a consistent four returns the same four. None given means no initial conditions; one, three or four given is a ValueError.", "quantifier": "all material constants with kap<lam, all subsets of values", "why_tests_cant": "All reals and subsets", "anchors": ["geotecha/constitutive_models/void_ratio_stress.py:YinAndGrahamSoilModel.initial_conditions"]}
{"id": "C209", "title": "Yin and Graham: stepping is exact", "statement": "From the initial state, e_from_stress over any sequence of positive stresses and time increments without two equal neighbours returns the void ratios of the soil's differential equation along the piecewise linear stress history: the equation has a solution and every solution passes through the returned values. Subdividing an increment changes nothing; a longer increment to the same stress gives a smaller void ratio.", "quantifier": "all soils, initial states and stress histories of any length", "why_tests_cant": "Unbounded histories; uniqueness of solutions", "anchors": ["geotecha/constitutive_models/void_ratio_stress.py:YinAndGrahamSoilModel.e_from_stress", "geotecha/constitutive_models/void_ratio_stress.py:YinAndGrahamSoilModel._inc_from_stress"]}
{"id": "C210", "title": "Yin and Graham: holding the stress", "statement": "Creep under constant stress should follow the rate law. It does not: e_from_stress at the present stress ignores the time increment and counts calls; each call adds (estress/estress0)/t0 to the creep integral, which agrees with the law only for the one increment dt=(estress/estress0)**(1-alpha).", "quantifier": "all soils, states and time increments", "why_tests_cant": "All increments", "anchors": ["geotecha/constitutive_models/void_ratio_stress.py:YinAndGrahamSoilModel.e_from_stress", "geotecha/constitutive_models/void_ratio_stress.py:YinAndGrahamSoilModel._inc_from_stress"]}
{"id": "C211", "title": "Yin and Graham: stress from void ratio", "statement": "If stress_from_e returns, the returned array holds the positive stress stored in the object and satisfies the integrated soil equation with the stored creep integral; any stress at which e_from_stress would give the void ratio lies between the last iterate and the returned stress. The returned array is the object's own and is overwritten by the next call; the iteration can settle on an oscillation and return a stress that is not the solution.", "quantifier": "all soils, states, void ratios and increments", "why_tests_cant": "All inputs and call sequences", "anchors": ["geotecha/constitutive_models/void_ratio_stress.py:YinAndGrahamSoilModel.stress_from_e"]}
{"id": "C212", "title": "Yin and Graham: CRSS", "statement": "At a constant stress rate CRSS by steps returns estress0+rate*t and the exact values of the differential equation given to odeint, on a grid from the first to the last time with at least min_segments intervals. It leaves the object at the final stress (and, if it had been stepped, with the creep of the simulation), so a second run of the same simulation gives smaller void ratios.", "quantifier": "all soils, times, constant rates, subdivisions", "why_tests_cant": "All inputs; object history", "anchors": ["geotecha/constitutive_models/void_ratio_stress.py:YinAndGrahamSoilModel.CRSS"]}
{"id": "C213", "title": "Yin and Graham: slope of the void ratio stress curve", "statement": "av_from_stress with the stress rate is minus the slope de/dstress of the rate law for increasing stress; for decreasing stress it has the wrong sign of the creep part; without the rate it is a lower bound.", "quantifier": "all states on a history of the soil", "why_tests_cant": "All reals", "anchors": ["geotecha/constitutive_models/void_ratio_stress.py:YinAndGrahamSoilModel.av_from_stress"]}
{"id": "C214", "title": "Yin and Graham: initialising again", "statement": "e_from_stress without a time increment gives the void ratio of the soil without creep up to the preconsolidation stress and is too large by (lam-kap)ln(estress/pstress) beyond; it does not clear the creep integral, so later increments on an old object give smaller void ratios than on a new one. _reset_to_initial_conditions makes the object behave as newly made.", "quantifier": "all soils, states, histories after it", "why_tests_cant": "Object histories", "anchors": ["geotecha/constitutive_models/void_ratio_stress.py:YinAndGrahamSoilModel.e_from_stress", "geotecha/constitutive_models/void_ratio_stress.py:YinAndGrahamSoilModel._reset_to_initial_conditions"]}
{"id": "C215", "title": "Yin and Graham: CRSN", "statement": "If CRSN by steps returns at a constant rate of the void ratio, the void ratios are e0+rate*t and every returned stress is positive and satisfies the integrated soil equation with creep integrals that start from zero and strictly increase. The differential equations CRSS and CRSN give to odeint are one law.", "quantifier": "all soils, times, constant rates, subdivisions", "why_tests_cant": "All inputs", "anchors": ["geotecha/constitutive_models/void_ratio_stress.py:YinAndGrahamSoilModel.CRSN", "geotecha/constitutive_models/void_ratio_stress.py:YinAndGrahamSoilModel.CRSS"]}
{"id": "C216", "title": "Tanh transition weight", "statement": "tanhtran(x, a, b) is a transition weight: values strictly between 0 and 1, monotone in x (increasing for b > 0), tending to 0 and 1, equal to one half at x = 0.5 and point symmetric about it. The position argument a is ignored, so the documented curve 0.5+0.5*tanh((x-a)/b) is returned iff a = 0.5; tanhtrani inverts it iff a = 0.5 (otherwise off by a - 0.5), and the smoothing factor of tanhtranib passes the curve through the requested point iff a = 0.5.", "quantifier": "all real x, a, y in (0,1), b nonzero", "why_tests_cant": "A test samples some positions; with the default a = 0.5 everything agrees and the ignored argument is invisible.", "anchors": ["geotecha/beam_on_foundation/specbeam.py:tanhtran", "geotecha/beam_on_foundation/specbeam.py:tanhtrani", "geotecha/beam_on_foundation/specbeam.py:tanhtranib"]}
{"id": "C217", "title": "Reverse curve transition", "statement": "reverse_curve_transition joins two levels by two circular arcs of equal radius, each tangent to its level: level outside the end points, monotone and within the levels, point symmetric; continuous through the mid point when the rise does not exceed the length, with a continuous slope vanishing at the ends when it is smaller; when the rise exceeds the length the curve jumps at the middle by h - L^2/h. The end points may be given in either order; equal x coordinates are refused unless the levels are equal; an integer x array truncates every value, so a transition between levels in [0,1) comes back as zeros.", "quantifier": "all end points and all x", "why_tests_cant": "Tests compare a few curve points of gentle transitions; continuity, tangency and the failure for steep ones are statements about all x.", "anchors": ["geotecha/beam_on_foundation/specbeam.py:reverse_curve_transition"]}
{"id": "C218", "title": "Moving load on an infinite beam solves the beam equation", "statement": "For every order in which np.roots lists the four distinct roots, moving_load_on_beam_on_elastic_foundation returns, on the requested grid, a function that satisfies w''''+4 alp^2 w''-8 alp bet w'+4 w = 0 on both sides of the load with w, w', w'' continuous and w''' jumping by 8 at the load. In exact arithmetic it fails exactly when two roots coincide, for example for alp = 1, bet = 0.", "quantifier": "all velocity and damping ratios, all root orders, all grids", "why_tests_cant": "A test plots or compares a few curves; being a solution is a statement about all points and derivatives.", "anchors": ["geotecha/beam_on_foundation/specbeam.py:moving_load_on_beam_on_elastic_foundation"]}
{"id": "C219", "title": "Decay and uniqueness of the moving load response", "statement": "The displacement returned by moving_load_on_beam_on_elastic_foundation dies out on both sides of the load iff the first two roots listed have negative and the last two positive real part, and is bounded iff this holds weakly. If alp*bet is nonzero or abs(alp) < 1 exactly two roots lie on each side, so an order as the code assumes exists; otherwise all roots are imaginary and nothing decays. In the assumed order the displacement is real and is the only response with bounded deflection, slope, moment and shear. The code does not order the roots.", "quantifier": "all velocity and damping ratios and all root orders", "why_tests_cant": "The order returned by np.roots is not specified and the behaviour at infinity cannot be sampled.", "anchors": ["geotecha/beam_on_foundation/specbeam.py:moving_load_on_beam_on_elastic_foundation"]}
{"id": "C220", "title": "Static deflection shape", "statement": "point_load_static_defl_shape_function and static_point_load_shape satisfy L^4 w''''+4w = 0 off the load with the shear jump 8/L^3, are one at the load with zero slope, strictly smaller in magnitude elsewhere, symmetric, die out, and integrate to 2L(1-exp(-X/L)cos(X/L)) over the distance X on either side. multi_static superposes them on an evenly spaced grid including both limits, bounded by the sum of the magnitudes; unmatched positions or magnitudes are dropped.", "quantifier": "all characteristic lengths, load positions, lists of loads and x", "why_tests_cant": "Differential equation, bound, decay and integral are statements about all x.", "anchors": ["geotecha/beam_on_foundation/specbeam.py:point_load_static_defl_shape_function", "geotecha/beam_on_foundation/specbeam.py:static_point_load_shape", "geotecha/beam_on_foundation/specbeam.py:multi_static"]}
{"id": "C221", "title": "Dynamic amplification factors", "statement": "DAFinfinite and DAFrelative return kratio^(-3/4) times the largest displacement over their sample points (including the point under the load), which is kratio^(-3/4) for a load at rest with any damping; at zero velocity the response is the static shape. The response is physical: static deflection times w(lam(x-vt)) solves EI u''''+m u_tt+c u_t+k u = 0 with shear jump Q for v = alp*vcr, c = bet*ccr, and the changes alp/kratio^0.25, bet*(1/kratio)^0.5 and (1/kratio)^0.75 are those of a beam with foundation stiffness kratio times the reference.", "quantifier": "all velocity and damping ratios, stiffness ratios, beams and loads", "why_tests_cant": "Tests compare a few tabulated factors; scaling laws and the equation of motion quantify over all parameters and points.", "anchors": ["geotecha/beam_on_foundation/specbeam.py:DAFinfinite", "geotecha/beam_on_foundation/specbeam.py:DAFrelative"]}
{"id": "C222", "title": "Superposition of loads in speccon1d_vr", "statement": "With the same soil, number of terms and dT, if up to time t the loads (surcharge, vacuum in the drain, top and bottom pressures, fixed pore pressures, pumping, each with its omega/phase multiplier) of one input are alpha times those of a second plus beta times those of a third, then the computed pore pressure at any depth, the average pore pressure over any interval and the settlement (same H*mvref) at t are the same combination of those computed for the second and third, whatever eigensystems np.linalg returned in each run.", "quantifier": "every ground profile, every list of piecewise linear load histories, all alpha, beta, times, depths and numbers of terms", "why_tests_cant": "It relates three runs for a continuum of soils, loads and combinations, over all valid eigenvector choices.", "anchors": ["geotecha/speccon/speccon1d_vr.py:Speccon1dVR.make_E_Igamv_the", "geotecha/speccon/speccon1d_vr.py:Speccon1dVR._make_por", "geotecha/speccon/speccon1d_vr.py:Speccon1dVR._make_avp", "geotecha/speccon/speccon1d_vr.py:Speccon1dVR._make_set"]}
{"id": "C223", "title": "Causality and independence of representation", "statement": "Two speccon1d_vr inputs with the same soil, number of terms and dT whose loads agree up to time t give the same pore pressure, average and settlement at t: later loads, the way a load history is split, ordered or refined, the implementation used, and the order and scaling of the eigenvectors have no effect; while all loads are zero the pore pressure is zero.", "quantifier": "every pair of inputs, every time and depth, every eigensystem returned", "why_tests_cant": "The claim ranges over all future loads and all representations of a load.", "anchors": ["geotecha/speccon/speccon1d_vr.py:Speccon1dVR._make_eigs_and_v", "geotecha/speccon/speccon1d_vr.py:Speccon1dVR.make_E_Igamv_the", "geotecha/speccon/speccon1d_vr.py:Speccon1dVR._make_por"]}
{"id": "C224", "title": "Reference time factor is only a unit", "statement": "When no matrix entry falls below the 1e-8 tolerance, two speccon1d_vr inputs that describe the same ground and loads with different dT give the same pore pressure, average pore pressure and settlement.", "quantifier": "every ground profile, loads, nonzero dT, time and depth", "why_tests_cant": "It relates runs for a continuum of dT and of inputs.", "anchors": ["geotecha/speccon/speccon1d_vr.py:Speccon1dVR._make_psi", "geotecha/speccon/speccon1d_vr.py:Speccon1dVR.make_E_Igamv_the"]}
{"id": "C225", "title": "Mirror symmetry", "statement": "With prescribed pressure at both ends (drn = 0), turning the ground and the loads upside down turns the computed pore pressure upside down; a problem symmetric about mid depth has a symmetric pore pressure.", "quantifier": "every ground profile and loads and their mirror image, every time, depth and number of terms", "why_tests_cant": "It relates two runs for every profile and load history.", "anchors": ["geotecha/speccon/speccon1d_vr.py:Speccon1dVR._make_m", "geotecha/speccon/speccon1d_vr.py:Speccon1dVR._make_psi", "geotecha/speccon/speccon1d_vr.py:Speccon1dVR.make_E_Igamv_the", "geotecha/speccon/speccon1d_vr.py:Speccon1dVR._make_por"]}
{"id": "C226", "title": "EPUS pore-shape warning", "statement": "The flag behind the final warning \"please check the PORE-SHAPE PARAMETER\" is set by drying, wetting or loading exactly when it was set before or some pore group handled by the step would be left with non-positive relative size 1 - Pore_shape*(...)/(3*water left) by the documented formula (in which case the entry suction is left unchanged); unloading never sets it, nothing clears it, and with Pore_shape = 0 no history sets it.", "quantifier": "all parameters, states and histories of operations", "why_tests_cant": "It is an equivalence over all states and parameters and an invariant of all histories.", "anchors": ["geotecha/constitutive_models/epus.py:EPUS.ChangeSuction", "geotecha/constitutive_models/epus.py:EPUS.ChangeWetSuction", "geotecha/constitutive_models/epus.py:EPUS.Drying", "geotecha/constitutive_models/epus.py:EPUS.Wetting", "geotecha/constitutive_models/epus.py:EPUS.Loading"]}
{"id": "C227", "title": "Superposition and causality with well resistance (speccon1d_vrw)", "statement": "With the same soil, drain conductivity, number of terms and dT, if the loads of one input are alpha times those of a second plus beta times those of a third up to time t, so are the computed pore pressures at any depth, the averages and (same H*mvref) settlements at t, and, with the same H and no step in a boundary load at t, the reported drain pressures; hence later loads, the representation of loads and the eigenvectors and inverse returned by np.linalg have no effect, and without loads the pressure is zero.", "quantifier": "every ground and drain profile, every list of load histories, all alpha, beta, times, depths and numbers of terms", "why_tests_cant": "It relates three runs for a continuum of soils, drains, loads and combinations, over all eigenvector choices.", "anchors": ["geotecha/speccon/speccon1d_vrw.py:Speccon1dVRW._make_eigs_and_v", "geotecha/speccon/speccon1d_vrw.py:Speccon1dVRW.make_E_Igamv_the", "geotecha/speccon/speccon1d_vrw.py:Speccon1dVRW._make_por", "geotecha/speccon/speccon1d_vrw.py:Speccon1dVRW._make_porwell", "geotecha/speccon/speccon1d_vrw.py:Speccon1dVRW._make_avp", "geotecha/speccon/speccon1d_vrw.py:Speccon1dVRW._make_set"]}
{"id": "C228", "title": "make_all of speccon1d_vr reports one solution in all its tables", "statement": "When make_all finishes, the output holds exactly the tables asked for (pore pressure, average pore pressure, settlement, in that order); rows are labelled with the output times selected by the index attribute and columns with the reduced levels of the depths asked for; every cell is the result at that time and depth whatever other output was asked for. For inputs that describe a consolidation problem, with np.linalg keeping its contract, make_all finishes and all tables show one pore pressure u that has the prescribed boundary values and satisfies the tested consolidation equations (up to dropped matrix entries below 1e-8): averages of u, and settlements from the effective stress.", "quantifier": "all inputs, output requests (times, depths, slices or index lists) and eigen-solvers keeping their contract", "why_tests_cant": "needs all inputs and all combinations of requested output", "anchors": ["geotecha/speccon/speccon1d.py:Speccon1d.make_all", "geotecha/speccon/speccon1d_vr.py:Speccon1dVR.make_time_independent_arrays", "geotecha/speccon/speccon1d_vr.py:Speccon1dVR.make_time_dependent_arrays", "geotecha/speccon/speccon1d_vr.py:Speccon1dVR.make_output", "geotecha/speccon/speccon1d_vr.py:Speccon1dVR._make_por", "geotecha/speccon/speccon1d_vr.py:Speccon1dVR._make_avp", "geotecha/speccon/speccon1d_vr.py:Speccon1dVR._make_set"]}
{"id": "C229", "title": "The tval_indexes attributes select the intended output times", "statement": "The default index slice(None, None) reports every output time in order; a slice with positive (negative) step reports exactly the times from its start, a multiple of the step apart, before (after) its end, in increasing (decreasing) order, with negative bounds counted from the end and bounds beyond the array moved to its ends; a zero step or an index out of range is refused; a list of indexes reports those times in the order given.", "quantifier": "all numbers of output times, slices and index lists", "why_tests_cant": "unbounded index ranges and signs", "anchors": ["geotecha/speccon/speccon1d_vr.py:Speccon1dVR.make_output", "geotecha/speccon/speccon1d_vr.py:Speccon1dVR._make_por"]}
{"id": "C230", "title": "layer_coords keeps every interface and cuts layers evenly", "statement": "For layers of positive thickness the coordinates start at 0, increase strictly, end at the total thickness and include every interface; each layer is cut into at least min_segs equal parts; no gap reaches twice the profile thickness divided by segs; there are at most segs + min_segs times the number of layers segments. Without layers there is an IndexError.", "quantifier": "all lists of positive layer heights, all segs >= 1 and min_segs >= 1", "why_tests_cant": "unbounded lists of layers", "anchors": ["geotecha/piecewise/piecewise_linear_1d.py:layer_coords"]}
{"id": "C231", "title": "PolyLine scaling is pointwise, reciprocals are not, comparison has an absolute tolerance", "statement": "PolyLine times or divided by a number scales the curve at every abscissa and leaves the operand unchanged; number / PolyLine has reciprocal corner heights and lies nowhere below the reciprocal curve (for positive heights) but differs from it between corners; == holds exactly when both have equally many points with coordinates within 1e-5 plus 1e-8 of the size of the other operand, so it is reflexive, not symmetric, distinguishes equal curves with different corner points, and any two lines with equally many points and coordinates below 5e-6 compare equal; != is the opposite of ==.", "quantifier": "all PolyLines and numbers", "why_tests_cant": "needs all curves and abscissae", "anchors": ["geotecha/piecewise/piecewise_linear_1d.py:PolyLine.__mul__", "geotecha/piecewise/piecewise_linear_1d.py:PolyLine.__truediv__", "geotecha/piecewise/piecewise_linear_1d.py:PolyLine.__rtruediv__", "geotecha/piecewise/piecewise_linear_1d.py:PolyLine.__eq__", "geotecha/piecewise/piecewise_linear_1d.py:PolyLine.__ne__"]}
{"id": "C232", "title": "Shanks extrapolation of two-dimensional data", "statement": "shanks(seq, ind) on 2-d data with one row is the 1-d call. When no denominator of the iterated transformation vanishes in any row, each row of the answer is the extrapolated value of that row alone. The docstring's claim that each row is a separate sequence is false otherwise: a zero denominator in one row makes the call return every row unextrapolated.", "quantifier": "all 2-d arrays over any field, all ind", "why_tests_cant": "The rows interact only through a test on all denominators, so any example without a zero denominator looks right", "anchors": ["geotecha/mathematics/quadrature.py:shanks"]}
{"id": "C233", "title": "vcosine_transform is the cosine integral to the m-th zero", "statement": "For s > 0 and no extrapolation vcosine_transform(f, s, m=m, ng=ng) differs from the integral of f(x) cos(s x) from 0 to the m-th positive zero of cos(s x) by no more than the sum of the quadrature errors on the m segments; for a decreasing non-negative f what is cut off is at most 2 f(R)/s. With extrapolation a geometric sequence of segment integrals gives the sum of the whole series. For s < 0 the answer is minus that of the mirrored function, so for even f it has the wrong sign.", "quantifier": "all functions, positive and negative s, numbers of segments and Gauss points, lists of s", "why_tests_cant": "Tests compare a few transform pairs; the claim is about every function and every s", "anchors": ["geotecha/mathematics/fourier.py:vcosine_transform"]}
{"id": "C234", "title": "v2dcosine_transform is the transform of the transform", "statement": "Every element of the grid returned by v2dcosine_transform(f, s1, s2) equals vcosine_transform in y at s2 followed by vcosine_transform in x at s1, with and without extrapolation; for f(x) g(y) it is the product of the two transforms.", "quantifier": "all functions of two variables, all grids of non-zero s1 and s2, all m, ng and shanks_ind", "why_tests_cant": "Six array dimensions and a non-linear extrapolation between the sums; a test sees one function on one grid", "anchors": ["geotecha/mathematics/fourier.py:v2dcosine_transform"]}
{"id": "C235", "title": "The output tables of speccon1d_vrw", "statement": "make_output of speccon1d_vrw writes pore pressure and drain pressure tables when depths are given, an average table when average pairs are given and a settlement table when settlement pairs are given, in that order. Every cell of a table belongs to the depth of its row and the time picked by its index attribute, labels are depths times H (and levels from RLzero), all averages and settlements are those of the one pore pressure shown in the pore pressure table.", "quantifier": "all inputs with a well, all lists of depths, pairs, times and index attributes", "why_tests_cant": "Tests read one table at a few depths and times, never that the tables agree with each other for every input", "anchors": ["geotecha/speccon/speccon1d_vrw.py:Speccon1dVRW.make_output", "geotecha/speccon/speccon1d_vrw.py:Speccon1dVRW.make_time_dependent_arrays"]}
{"id": "C236", "title": "The output tables of speccon1d_vrc", "statement": "make_output of speccon1d_vrc writes tables of average, soil and column pressure, of their depth averages, and of settlement, in that order and each only when asked for. The average pressure is the area weighted mean of soil and column pressure, each average table integrates its own pressure table, the settlement belongs to the average pressure.", "quantifier": "all inputs with a column, all lists of depths, pairs, times and index attributes", "why_tests_cant": "Seven tables made by seven calls; exchanged tables or indices are visible only when all are compared for general input", "anchors": ["geotecha/speccon/speccon1d_vrc.py:Speccon1dVRC.make_output", "geotecha/speccon/speccon1d_vrc.py:Speccon1dVRC.make_time_dependent_arrays"]}
{"id": "C237", "title": "The output tables of speccon1d_unsat", "statement": "make_output of speccon1d_unsat writes tables of water and air pressure, their averages, and total, water and air settlement, in that order and each only when asked for. Averages integrate the water and air pressure shown; the total settlement is the integral of the water and air strains; the water and air settlement tables show those integrals with the proved error of setw and seta.", "quantifier": "all unsaturated inputs, all lists of depths, pairs, times and index attributes", "why_tests_cant": "Tests look at single functions; agreement of the tables must hold for every input", "anchors": ["geotecha/speccon/speccon1d_unsat.py:Speccon1dUnsat.make_output", "geotecha/speccon/speccon1d_unsat.py:Speccon1dUnsat.make_time_dependent_arrays"]}
{"id": "C238", "title": "The timeout decorator under every schedule", "statement": "Whatever the order in which the caller, the process and the clock advance, a call of timeout(seconds)(f) returns what f returned, raises what f raised, or raises TimeoutException not before seconds have passed; with force_kill the process is then dead. Once the process has exited in time the call cannot time out, and when the answer fits into the pipe of the queue it can arrive from every waiting state. False in general: an answer larger than the pipe never arrives (the caller joins the process before it reads the queue), so the call always times out, or never ends without a limit; an answer that cannot be pickled can make the call hang for ever.", "quantifier": "all functions, sizes of answers, limits, force_kill, and all interleavings of the two processes and the clock", "why_tests_cant": "Schedules cannot be enumerated; the tests use small answers and generous limits", "anchors": ["geotecha/inputoutput/timeout.py:timeout", "geotecha/inputoutput/timeout.py:RunableProcessing"]}
{"id": "C239", "title": "Curves for plotting follow the soil model", "statement": "The points that the ..._for_plotting methods of the soil models return are npts points of the relation the object stands for, in increasing order from the first to the last value asked for; with a preconsolidation stress the Cc/Cr model includes that stress as a point. The piecewise models ignore the range asked for and use the range of their data, and a preconsolidation stress above the range is an IndexError", "quantifier": "every soil model, range, number of points of at least 2, and preconsolidation stress", "why_tests_cant": "A plotted curve is compared with a picture; the ordering, the coverage of the range and the corner must hold for every range and model", "anchors": ["geotecha/constitutive_models/void_ratio_stress.py:CcCrSoilModel.e_and_stress_for_plotting", "geotecha/constitutive_models/void_ratio_stress.py:AvSoilModel.e_and_stress_for_plotting", "geotecha/constitutive_models/void_ratio_stress.py:PwiseLinearSoilModel.e_and_stress_for_plotting", "geotecha/constitutive_models/void_ratio_permeability.py:CkPermeabilityModel.e_and_k_for_plotting", "geotecha/constitutive_models/void_ratio_permeability.py:PwiseLinearPermeabilityModel.e_and_k_for_plotting", "geotecha/constitutive_models/velocity_hydraulic_gradient.py:HansboNonDarcianFlowModel.v_and_i_for_plotting", "geotecha/constitutive_models/velocity_hydraulic_gradient.py:DarcyFlowModel.v_and_i_for_plotting", "geotecha/constitutive_models/swcc.py:SWCC_FredlundAndXing1994.psi_and_w_for_plotting", "geotecha/constitutive_models/swcc.py:SWCC_PhamAndFredlund2008.psi_and_w_for_plotting"]}
{"id": "C240", "title": "Runs that save into one directory keep each other's output", "statement": "Whatever the history of runs that save their output into one directory (interleaved in any way, any of them killed at any moment), if no run chooses its file stem while another has chosen one and not yet made its folder or first file, then no earlier file changes, no run fails, and every run that finished has all its files with its own contents; a run that is not killed finishes. In particular this holds for any history of runs one after the other. Without that condition two simultaneous runs overwrite each other or one fails with FileExistsError. A single figure instead of a list is a TypeError", "quantifier": "every number of runs, prefix without regular expression characters, files saved, schedule and crash points", "why_tests_cant": "Overwritten results need a particular interleaving or a crash at a particular moment, and depend on what the directory already holds", "anchors": ["geotecha/inputoutput/inputoutput.py:InputFileLoaderCheckerSaver._determine_output_stem", "geotecha/inputoutput/inputoutput.py:InputFileLoaderCheckerSaver._save_data", "geotecha/inputoutput/inputoutput.py:InputFileLoaderCheckerSaver._save_figures", "geotecha/inputoutput/inputoutput.py:next_output_stem"]}
{"id": "C241", "title": "Superposition and causality with permeable columns (speccon1d_vrc)", "statement": "For three runs of speccon1d_vrc with the same soil, column, radius ratio, number of terms and dT, the reported pore pressure, average pore pressure and settlement of the run whose loads are a linear combination of the loads of the two others are the same combination of their results; so are the pressures in the soil and in the column (at times without a step in a boundary load). Results at a time do not depend on loads after it, nor on how the same loads and layers are written down, and there is no pressure before the first load.", "quantifier": "All inputs (any layering, PolyLine loads, drainage, number of terms), all factors, depths, depth intervals and times, any inverse and any eigensystem returned by numpy", "why_tests_cant": "A statement about triples of runs over unbounded inputs, and about histories of loads after the output time", "anchors": ["geotecha/speccon/speccon1d_vrc.py:Speccon1dVRC.make_output", "geotecha/speccon/speccon1d_vrc.py:Speccon1dVRC.make_time_independent_arrays"]}
{"id": "C242", "title": "Point and segment functions agree about a PolyLine", "statement": "Interpolating, integrating and averaging a PolyLine object gives the same answer whether the function reading its points or the function reading its segments is used, whether the line was built from x and y or from segments, and whatever was read from it or multiplied and divided before: the value, integral or mean of the curve. The functions do not change the object. (After a discarded p + c they disagree: an exact negation is proved.)", "quantifier": "All lines with non-decreasing abscissae (any steps), all contiguous segment lists, all sequences of reads, products and quotients, all query points and intervals inside the data", "why_tests_cant": "Ranges over all lines and over histories of the lazily filled object", "anchors": ["geotecha/piecewise/piecewise_linear_1d.py:pinterp_x_y", "geotecha/piecewise/piecewise_linear_1d.py:pintegrate_x_y_between_xi_xj", "geotecha/piecewise/piecewise_linear_1d.py:pintegrate_x1_x2_y1_y2_between_xi_xj", "geotecha/piecewise/piecewise_linear_1d.py:pavg_x1_x2_y1_y2_between_xi_xj", "geotecha/piecewise/piecewise_linear_1d.py:PolyLine"]}
{"id": "C243", "title": "Superposition, causality and rest in unsaturated soil", "statement": "Speccon1dUnsat is linear in its loads: if three runs have the same soil, number of terms, dT and dTw, and up to time t the surcharges and the water and air boundary pressures of the first are alpha times those of the second plus beta times those of the third, then the pore water and pore air pressures at t, their averages and the three settlements of the first are alpha times plus beta times those of the others; runs whose loads agree up to t report the same pressures at t; before the first load the pressures are zero. It needs that a boundary list is missing in all three runs or in none (C243_negation).", "quantifier": "all soil profiles and loads, all alpha and beta, all times, depths and numbers of terms", "why_tests_cant": "superposition relates three runs for all loads and combinations; a test compares a few runs with a few numbers", "anchors": ["geotecha/speccon/speccon1d_unsat.py:Speccon1dUnsat.make_output", "geotecha/speccon/speccon1d_unsat.py:Speccon1dUnsat._make_E_Igamv_the_BC", "geotecha/speccon/speccon1d_unsat.py:Speccon1dUnsat._make_set"]}
{"id": "C244", "title": "Processing one input file", "statement": "GenericInputFileArgParser.process opens the file, makes the object from it and closes the file again whether or not that raises; only then are the methods called, in order, on the object until one raises; what is raised is what open, the constructor or that method raised. With pass_open_file=False no file is opened.", "quantifier": "all objects, methods, paths, states and crash points", "why_tests_cant": "The object, its methods and every place where they may raise are arbitrary.", "anchors": ["geotecha/inputoutput/inputoutput.py:GenericInputFileArgParser.process"]}
{"id": "C245", "title": "Timers report the latest start", "statement": "After any history of SimpleTimer.start and finish calls at any levels, finish(i) reports the time since the latest start(i) under the title given there; finishing a level that was never started raises KeyError and prints nothing. Run times are not negative when the clock does not run backwards.", "quantifier": "all histories of calls and clock readings", "why_tests_cant": "All histories.", "anchors": ["geotecha/inputoutput/inputoutput.py:SimpleTimer.start", "geotecha/inputoutput/inputoutput.py:SimpleTimer.finish"]}
{"id": "C246", "title": "The array prefix is process-wide", "statement": "After any history of PrefixNumpyArrayString objects being made, changed, turned on and turned off, arrays print with the present prefix of the object turned on last, or as numpy prints them after any turn_off. string_of_object_attributes leaves numpy's printing behind (also when a prefix was on before), but when writing an attribute raises its prefix stays on.", "quantifier": "all histories, all attribute lists and crash points", "why_tests_cant": "All histories and exceptions.", "anchors": ["geotecha/inputoutput/inputoutput.py:PrefixNumpyArrayString.turn_on", "geotecha/inputoutput/inputoutput.py:PrefixNumpyArrayString.turn_off", "geotecha/inputoutput/inputoutput.py:string_of_object_attributes"]}
{"id": "C247", "title": "Tinting and shading palettes", "statement": "After any history of tint_colors and shade_colors calls the palette has as many colours as before, all proper colours with unchanged alpha, and every component v became s v + t with s and t depending only on the factors used; a call with a factor outside [0, 1] raises ValueError and changes nothing (an empty palette never raises).", "quantifier": "all palettes and histories", "why_tests_cant": "All histories.", "anchors": ["geotecha/plotting/one_d.py:MarkersDashesColors.tint_colors", "geotecha/plotting/one_d.py:MarkersDashesColors.shade_colors"]}
{"id": "C248", "title": "Marker spacing with random starts", "statement": "apply_markevery_to_sequence_of_lines gives every line of a list the spacing asked for; with a random start the first marker of every line lies between 0 and the spacing, a seed makes the outcome independent of earlier draws, and a negative integer spacing raises ValueError before any line is touched; without a random start, and for None, every line gets the value itself.", "quantifier": "all lists of lines, spacings, seeds and generator states", "why_tests_cant": "Random draws.", "anchors": ["geotecha/plotting/one_d.py:apply_markevery_to_sequence_of_lines"]}
{"id": "C249", "title": "The difference of two layered soil profiles is their pointwise difference", "statement": "Subtracting one depth profile from another (PolyLine p - q, as the settlement of speccon1d_unsat does with the compressibilities m2w - m1kw and m2a - m1ka) succeeds and gives a depth profile from 0 to 1 whose value at every depth away from the layer boundaries is the difference of the two values. The lines are to have no superfluous points (no three neighbours nearly on one line) and, where they step, steps that differ by more than the tolerance or not at all. Hence the settlement results C95, C96, C237 and C243 hold for such layered soils.", "quantifier": "every pair of depth profiles with any number of layers, well separated boundaries, and any values", "why_tests_cant": "Tests subtract one or two lines of few points; whether every interface of two arbitrary layerings survives the merge, in the right order with both values, is a statement over all lists of points.", "anchors": ["geotecha/piecewise/piecewise_linear_1d.py:PolyLine.__sub__", "geotecha/piecewise/piecewise_linear_1d.py:PolyLine._add_substract", "geotecha/speccon/speccon1d_unsat.py:Speccon1dUnsat._make_set"]}
{"id": "C250", "title": "The plot of a load shows the load", "statement": "The history of a load given as a PolyLine is drawn as a line through all its data points in their order, from the first to the last, with all its points on the PolyLine times the cosine factor of a cyclic load; for ascending times neighbouring points are no more than a tenth of the time range apart, or a twentieth of the period. The distribution with depth is drawn the same way against depth or reduced level; point loads are drawn at their depth. A load with omega = 0 is refused with a division by zero.", "quantifier": "all PolyLines of at least two points, all cyclic factors, time ranges and layer heights", "why_tests_cant": "Tests compare no drawn points; subdivision depends on the data and the period", "anchors": ["geotecha/plotting/one_d.py:plot_generic_loads"]}
{"id": "C251", "title": "The figure of the loads shows every load once", "statement": "For all lists of loads the figure has one row for each group in order, with one curve in each panel for each load, labelled and styled alike in both panels; the time range is that of all loads. For Speccon1dVR each given kind of load has its row, boundary loads at the top or bottom, point loads at their depths. No groups, an empty first group before a non-empty one, or a first load which is not a PolyLine end in an exception.", "quantifier": "all lists of groups of loads and all objects with any subset of the six kinds of loads", "why_tests_cant": "Loads come in any number and combination; the style cycle and the time range run over all of them", "anchors": ["geotecha/plotting/one_d.py:plot_generic_loads", "geotecha/speccon/speccon1d_vr.py:Speccon1dVR._plot_loads"]}
{"id": "C252", "title": "The figure of the materials shows every material once", "statement": "Each given material property is drawn once against depth or reduced level, in order, with its own label and reference value, through all its data points; with none given the figure is refused. The same holds for Speccon1dVRW (with kw) and for Speccon1dVRC if kvc and khc are both given or both missing; Speccon1dVRC looks at khc to decide about kvc, so khc alone is an exception and kvc alone is left out.", "quantifier": "all non-empty lists of PolyLines and every subset of mv, kv, kh and et", "why_tests_cant": "Any subset of materials may be given, with any data", "anchors": ["geotecha/plotting/one_d.py:plot_single_material_vs_depth", "geotecha/speccon/speccon1d_vr.py:Speccon1dVR._plot_materials", "geotecha/speccon/speccon1d_vrc.py:Speccon1dVRC._plot_materials", "geotecha/speccon/speccon1d_vrw.py:Speccon1dVRW._plot_materials"]}
{"id": "C253", "title": "Figures of results show the results", "statement": "A figure of pressures against depth has one line for each time, with the label of that time, through all computed values at their depths (or reduced levels); a figure of averages or settlements against time has one line for each depth interval through all values at their times. It is drawn exactly if the shapes of the arrays fit. Two lines look alike exactly if their numbers differ by a multiple of the number of styles.", "quantifier": "all arrays of results, depths, times, labels and style lists", "why_tests_cant": "Tests do not look at the drawn data, and the number of lines is free", "anchors": ["geotecha/plotting/one_d.py:plot_vs_time", "geotecha/plotting/one_d.py:plot_vs_depth", "geotecha/speccon/speccon1d_vr.py:Speccon1dVR._plot_por", "geotecha/speccon/speccon1d_vr.py:Speccon1dVR._plot_avp", "geotecha/speccon/speccon1d_vr.py:Speccon1dVR._plot_set"]}
{"id": "C254", "title": "produce_plots: which figures, and whose properties", "statement": "produce_plots makes the figures of exactly those results that were asked for, in a fixed order, each with its title (Speccon1dVR, VRC, VRW, SchiffmanAndStein1970, NogamiAndLi2003); when one cannot be drawn those before it are kept and none follow. If no dict serves two keys each value axis has the label the user gave for its key or else its own default. A dict shared between keys makes the second figure carry the label of the first, and a second call draws as if the user had given no properties.", "quantifier": "all objects with any subset of outputs, all plot properties including shared dicts, all histories of two calls", "why_tests_cant": "Depends on aliasing between dicts and on what earlier steps did to them", "anchors": ["geotecha/speccon/speccon1d_vr.py:Speccon1dVR.produce_plots", "geotecha/speccon/speccon1d_vrc.py:Speccon1dVRC.produce_plots", "geotecha/speccon/speccon1d_vrw.py:Speccon1dVRW.produce_plots", "geotecha/consolidation/schiffmanandstein1970.py:SchiffmanAndStein1970.produce_plots", "geotecha/consolidation/nogamiandli2003.py:NogamiAndLi2003.produce_plots"]}
{"id": "C255", "title": "Generated initialisation code", "statement": "code_for_explicit_attribute_initialization prints code that, pasted into a class and run, sets exactly the attributes that initialize_objects_attributes sets, to the same values: with the values written out, whenever they are None, booleans, numbers or strings without quotes, backslashes or line breaks; with the name of the dict of defaults, whatever the values in the dict are. A default that contains a quote gives code which is not Python, and a backslash before an n comes back as a line break.", "quantifier": "all object and attribute names that are identifiers, all dicts of defaults, values when nothing is found, lists of attributes and objects", "why_tests_cant": "The generated text has to be read back as a program for every value; a test of the text for three values never runs it.", "anchors": ["geotecha/inputoutput/inputoutput.py:code_for_explicit_attribute_initialization", "geotecha/inputoutput/inputoutput.py:initialize_objects_attributes"]}
{"id": "C256", "title": "make_all, stage by stage", "statement": "make_all runs the check (except SchiffmanAndStein1970, which does not check), then the calculations, then saves, plots, saves figures and shows, as the flags say. An exception of the check or of a calculation leaves the disk untouched. Once the calculations have ended, the data asked for is complete on disk, in a new folder with a number larger than all there were, whatever the plotting does, also if it raises. With no flag set nothing is written or shown; showing figures alone touches no file. Called again on the same object it writes into the folder of the first time and replaces its files, although overwrite is False.", "quantifier": "all classes with arbitrary methods, all objects, settings, directories and outcomes of each method", "why_tests_cant": "A test needs a plotting routine that fails after the data is saved, for every point of failure; the tests call make_output directly.", "anchors": ["geotecha/speccon/speccon1d.py:Speccon1d.make_all", "geotecha/consolidation/nogamiandli2003.py:NogamiAndLi2003.make_all", "geotecha/consolidation/schiffmanandstein1970.py:SchiffmanAndStein1970.make_all", "geotecha/inputoutput/inputoutput.py:InputFileLoaderCheckerSaver._determine_output_stem"]}
{"id": "C257", "title": "The figures of speccon1d_unsat", "statement": "produce_plots of speccon1d_unsat makes, in order, figures of water and air pressure, of their averages, of total, water and air settlement (without inverting the axis, unlike the other classes), of loads and of materials, each if its depths are given and each from its own array, with the label of the user or the default. The figure of loads has a row for each kind of load given, boundary pressures of water and air at their boundary, over the times of all loads. The figure of materials shows all eight profiles, each with its own label; the label of the air coefficient calls its reference value k_w, so one figure gives k_w two values.", "quantifier": "all results, depths, intervals, plot properties, loads, materials and reference values", "why_tests_cant": "Figures are not compared by tests; which array goes under which title and label can only be settled for all arrays.", "anchors": ["geotecha/speccon/speccon1d_unsat.py:Speccon1dUnsat.produce_plots", "geotecha/speccon/speccon1d_unsat.py:Speccon1dUnsat._plot_loads", "geotecha/speccon/speccon1d_unsat.py:Speccon1dUnsat._plot_materials"]}
{"id": "C258", "title": "The figure with all results of Xie and Leo", "statement": "XieAndLeo2004.plot_all never returns a figure in the module as it is: the stresses it draws use a name that is bound nowhere and it raises for every object, drainage, depths and times. Were the load bound to that name, the figure would have eight subplots, each with one line per time through the points of all depths at their present positions, for the one-way solution exactly if drn is 1, with total stress the sum of effective stress and total pore pressure, and the legend would give degree of consolidation, time factor and time of each line; the times chosen by default are eleven, the first with time factor 0.0001, the others within 11 % of the times at which 10 %, ..., 90 %, 99 % are reached if their time factors are between 0.0001 and 3.", "quantifier": "all objects, drainage conditions, lists of depths and times", "why_tests_cant": "Ranges over all parameters and arrays.", "anchors": ["geotecha/consolidation/xieandleo2004.py:XieAndLeo2004.plot_all"]}
{"id": "C259", "title": "Labels of subplots and sheets of line styles", "statement": "xylabel_subplots adds and removes nothing and raises IndexError exactly if a label that is not None is meant for a subplot that is not there; raising or not, each subplot gets the y-axis label meant for it and the others keep theirs, and the same holds for the x-axis labels unless a y-axis label was beyond the subplots, when no x-axis label is set. The sheets drawn by demo_styles and demo_options show every item once, in order, numbered, inside the axes, and no two samples touch; after any history of construct_styles calls demo_styles shows the styles of the last call that did not raise, and nothing but a hint if there was none.", "quantifier": "all figures, lists of labels, lists of styles of any length and histories of calls", "why_tests_cant": "Ranges over all lists and histories.", "anchors": ["geotecha/plotting/one_d.py:xylabel_subplots", "geotecha/plotting/one_d.py:MarkersDashesColors.demo_styles", "geotecha/plotting/one_d.py:MarkersDashesColors.demo_options", "geotecha/plotting/one_d.py:MarkersDashesColors.construct_styles"]}
