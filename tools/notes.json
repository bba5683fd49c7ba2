{
 "C03": {
  "note": "Agreement holds for queries within the data range; C03_forms_differ_outside shows the two forms differ outside the range when the data start or end with a step."
 },
 "C06": {
  "status": "partial",
  "note": "False of the code: at an interior node the integral over an empty interval is not 0 (C06_negation). Proved away from nodes."
 },
 "C09": {
  "status": "partial",
  "note": "False of the code when a point is repeated (np.delete removes by position): C09_negation. Proved without repeated points."
 },
 "C20": {
  "status": "partial",
  "note": "False of the code when the data start with a repeat (index compared instead of value): C20_negation, C20_leading_repeat."
 },
 "C10": {
  "status": "partial",
  "note": "False of the code for a spike that returns within 1e-8 of the kept point (C10_negation). Proved when no two points nearly coincide; then also the curve is unchanged if nearly collinear means collinear (C10_curve_unchanged)."
 },
 "C12": {
  "status": "partial",
  "note": "False of the code: the operand is shifted (C12_negation, C12_add_shifts_operand); the result itself is right for the point form (C12_result_partial), stale for the cached interval form (C12_stale_intervals)."
 },
 "C14": {
  "status": "partial",
  "note": "Proved for lines whose abscissae are equal or further apart than the tolerance, whose steps exceed the tolerance, and descending data not beginning with a step. C14_negation: false for descending data beginning with a step."
 },
 "C13": {
  "note": "Same grid: always. Same curves: for lines whose abscissae are equal or further apart than the merging tolerance (np.allclose) and whose steps exceed it."
 },
 "C15": {
  "note": "logx/logy options not modelled."
 },
 "C30": {
  "note": "False of the code with a repeated point (C30_negation: IndexError from np.delete by position). Proved for histories without consecutive identical points; real eigenvalues."
 },
 "C31": {
  "note": "Same restriction as C30 (C30_negation covers both). Proved for every t, load zero outside the given times; real eigenvalues."
 },
 "C48": {
  "note": "real eigenvalues"
 },
 "C49": {
  "note": "real eigenvalues"
 },
 "C50": {
  "note": "real eigenvalues"
 },
 "C26": {
  "status": "partial",
  "note": "False of the code: the area is negative for every polygon whose normal has its first largest component along y (C26_negation) and nan for clockwise 2-d polygons (C26_clockwise). Proved positive otherwise."
 },
 "C52": {
  "status": "partial",
  "note": "False of the code: planes perpendicular to an axis lose that coordinate (C52_negation), y-dominant normals give the mirrored point (C52_mirrored). Proved for oblique planes otherwise."
 },
 "C54": {
  "status": "partial",
  "note": "Proved for oblique planes with a normal not dominated by y; the code divides by the area (C54_scaling shows why this matters)."
 },
 "C24": {
  "note": "array-valued f acts componentwise; broadcasting of unequal a, b not modelled"
 },
 "C51": {
  "note": "tables as exact decimals"
 },
 "C34": {
  "status": "partial",
  "note": "The inverse is proved for all i; the slope is false of the code for i <= 0 (C34_negation: dv_di returns k*sign(i)); C34_slope_partial covers i > 0."
 },
 "C35": {
  "note": "fixed-point iteration for the n-from-(kstar,klinear,...) case taken at its exact fixed point; C35_negation, C35_zero_division: accepted parameter sets on which the constructor raises AttributeError/ZeroDivisionError.",
  "status": "partial"
 },
 "C36": {
  "status": "partial",
  "note": "False when Cr > Cc (C36_negation); inverse proved for Cr <= Cc. The literal fact = 2.302585... is taken as ln 10."
 },
 "C57": {
  "status": "partial",
  "note": "False at the lowest data point, where the index wraps to the last point (C57_negation); IndexError beyond the last point (C57_beyond). Proved everywhere else. fact taken as ln 10."
 },
 "C38": {
  "status": "partial",
  "note": "False of the code for prefixes with regex metacharacters (C38_negation_metachar) and negative starts (C38_negation_start); proved for all prefixes without + * ? and other metacharacters, over any history of calls. ASCII digits only."
 },
 "C39": {
  "status": "partial",
  "note": "C39_accepts_iff characterises acceptance exactly. The stated safety claim is false of the code: assignment in dead code makes any name callable (C39_negation), attribute names and Call/Name/Attribute classes are unchecked holes (C39_attribute_hole, C39_call_class_unchecked)."
 },
 "C40": {
  "note": "for objects having all attributes mentioned; a missing one raises AttributeError (C40_missing)"
 },
 "C41": {
  "note": "provided the starting directory still exists at exit; C41_deleted says what happens otherwise"
 },
 "C64": {
  "status": "partial",
  "note": "False for KeyboardInterrupt/SystemExit: batch stops and the log level is not restored (C64_interrupt). Proved for Exceptions."
 },
 "C65": {
  "status": "partial",
  "note": "The script itself is not excluded (C65_script_not_excluded): the code compares with the name of the library module."
 },
 "C66": {
  "status": "partial",
  "note": "False for negative times and the seconds field can read 60.00 (C66_sixty, C66_negative); the value is right for non-negative times."
 },
 "C67": {
  "status": "partial",
  "note": "The caller's dicts are emptied: a second save writes nothing (C67_mutates). Writing proved for distinct dicts; table formatting not modelled."
 },
 "C68": {
  "status": "partial",
  "note": "False for strings with quotes or newlines (C68_quote, C68_injection); proved for None, integers and plain strings."
 },
 "C62": {
  "note": "the four setups are generated from the literals in the source by tools/gen_setup.py"
 },
 "C69": {
  "note": "Exact where np.isclose decides exactly (Sharp); otherwise within 2e-5 (C69_linear_all, C69_parabolic). mu_parabolic gives no number for kap < 1 and on the curve kap/(kap-1) = (s/(s-1))^2 (C69_parabolic_singular); mu_overlapping_linear refuses s = n (C69_overlapping_touching). mu_overlapping_linear and k_* only in the Sharp case."
 },
 "C70": {
  "note": "mu_piecewise_linear for zones on which np.isclose decides exactly."
 },
 "C71": {
  "note": "Inputs on which np.isclose decides exactly; muw >= 0. u_piecewise_linear divides by zero at radius 1 when the first two radii coincide (excluded by hypothesis)."
 },
 "C72": {
  "note": "fsolve is not modelled: the theorem says the equation it is given has at most one solution beyond the smear zone."
 },
 "C74": {
  "note": "Loads must cover the period up to the last output time (beyond the last load time Eload treats the load as removed while interpolation holds it); omega_phase lists as long as the load lists (check_input_attributes); depths closer than the interpolation tolerance are excluded (TolSep); exact arithmetic."
 },
 "C75": {
  "note": "Loads must cover the period up to the last output time (beyond the last load time Eload treats the load as removed while interpolation holds it); omega_phase lists as long as the load lists (check_input_attributes); depths closer than the interpolation tolerance are excluded (TolSep); exact arithmetic."
 },
 "C76": {
  "note": "settlement and average of speccon1d_vr under the contract of np.linalg (EigenSystem). Loads must cover the period up to the last output time (beyond the last load time Eload treats the load as removed while interpolation holds it); omega_phase lists as long as the load lists (check_input_attributes); depths closer than the interpolation tolerance are excluded (TolSep); exact arithmetic."
 },
 "C77": {
  "note": "np.linalg.eig/inv are not modelled: their contract is the hypothesis EigenSystem (solvable by C78) with nonzero real eigenvalues. The sign of pumping follows the parameter description (positive into the model), the class notes have the opposite sign. Loads must cover the period up to the last output time (beyond the last load time Eload treats the load as removed while interpolation holds it); omega_phase lists as long as the load lists (check_input_attributes); depths closer than the interpolation tolerance are excluded (TolSep); exact arithmetic."
 },
 "C78": {
  "note": "Existence and positivity for the matrices after entries below 1e-8 are set to zero."
 },
 "C79": {
  "note": "Under the contract of np.linalg, as C77."
 },
 "C80": {
  "note": "np.linalg assumed to satisfy its contract (VRWArrays.Made: inverse and eigensystem); C83 shows such arrays exist and that the eigenvalues are not zero."
 },
 "C81": {
  "status": "partial",
  "note": "False of the code in general. Proved for dT = 1 without a bottom gradient (or H = 1) at times without a boundary step (C81_drain_partial); C81_balance gives the exact error for other dT (a factor dT is missing), C81_bottom_gradient shows the missing factor H for drn = 1."
 },
 "C89": {
  "note": "Proved at times at which the load has no step. C89_negation proves that at a load step the settlement reported is wrong (negative settlement for a positive load): the code combines the load before the step with the pore pressure after it."
 },
 "C86": {
  "note": "Requires kvc != kv: for kvc = kv, which includes the default arguments, the code divides by zero (pors and porc are nan)."
 },
 "C90": {
  "status": "partial",
  "note": "False of the code in general. C90_weak_form_partial: no boundary loads, or column permeability constant with depth. C90_error: in general, with the exact error (the code multiplies the boundary flow of the column by I - G where G is right). np.linalg assumed to satisfy its contract (VRCArrays.Made); C93 shows such arrays exist."
 },
 "C92": {
  "status": "partial",
  "note": "C92_average and C92_means hold for all inputs. C92_parts_partial needs no boundary loads, or dT = 1 and a column permeability constant with depth: the code omits a factor 1/dT in the boundary terms of pors and porc, and adds where it should subtract the boundary flow of the column."
 },
 "C94": {
  "status": "partial",
  "note": "False of the code in general. C94_weak_form_partial: at least one of the four boundary lists is missing, and dTw is not zero or the air has no boundary loads. C94_all_given: with all four given the boundary loads do not act on the soil (sum(v is None) != 0 is the wrong test); C94_negation gives an input where the water balance is off by the whole volume change. np.linalg assumed to satisfy its contract (UnsatArrays.Made), real eigenvalues."
 },
 "C95": {
  "note": "The PolyLine differences m2w - m1kw and m2a - m1ka that the code forms are assumed to be the differences (C14 says when they are)."
 },
 "C96": {
  "status": "partial",
  "note": "False of the code: C96_error gives the exact error (the part m2a uw of the air is subtracted from setw instead of seta), C96_negation a concrete input; C96_parts_partial for m2a = 0."
 },
 "C99": {
  "status": "partial",
  "note": "Fredlund-Xing in full; Pham-Fredlund: the bound w <= ws is false near zero suction (C99_negation: the water content is unbounded there), proved from a suction of one on; monotonicity needs wr < ws - 6 s1."
 },
 "C101": {
  "status": "partial",
  "note": "Below the first data point the code returns a non-positive number instead of refusing (C101_below_negation); everything else proved."
 },
 "C103": {
  "status": "partial",
  "note": "Soundness (C103_sound) in full under the stated fsolve contract. First-n only for roots isolated at scale dx and p=1; C103_negation: false in general (close roots are missed)."
 },
 "C104": {
  "status": "partial",
  "note": "False of the code: C104_negation_start, C104_negation_factor. Exact condition for p=1: C104_ends_iff_partial."
 },
 "C105": {
  "status": "partial",
  "note": "False of the code; what holds instead is proved (C105_first_root_near_zero, C105_no_answer)."
 },
 "C106": {
  "status": "partial",
  "note": "Scalar and array behaviour characterised exactly; convergence for contractions with non-zero fixed point; C106_negation: false for a zero fixed point (relative test)."
 },
 "C110": {
  "status": "partial",
  "note": "PTIB proved. PTPB: the code is wrong (factor 2 for 4 in the second term); the exact error and a negation for every loaded permeable layer are proved (C110_PTPB_partial, C110_PTPB_top_wrong)."
 },
 "C113": {
  "status": "partial",
  "note": "False of the code: effective_stress_* and total_stress_* read a module-level name qu that does not exist and always raise NameError (C113_always_raises); what they would return is proved."
 },
 "C112": {
  "note": "integrate.quad is taken to be exact."
 },
 "C118": {
  "status": "partial",
  "note": "Positions, plotted data and calls are proved; the documented sharing of axes is false of the code: whatever sharex/sharey say no axes are shared (C118_grid), a single number other than 0 raises (C118_share_one)."
 },
 "C119": {
  "note": "integrate.quad is taken to be exact (Lebesgue integrals); weights cos/sin over half lines included."
 },
 "C120": {
  "note": "The documented behaviour is false of the code for these flags; the exact values are proved and one concrete counterexample (C120_even_wrong)."
 },
 "C121": {
  "note": "Uses Mathlib's Fourier inversion theorem."
 },
 "C124": {
  "status": "partial",
  "note": "The documented form opts=dict never works: TypeError for every input (C124_dict). Everything else of the property is proved."
 },
 "C125": {
  "note": "Bessel function and zeros are parameters; accuracy of gk_quad/gl_quad is a hypothesis (Accurate), met e.g. by polynomials through C51."
 },
 "C126": {
  "note": "The documented formula is false of the code; the exact number returned is proved."
 },
 "C129": {
  "note": "partial: the full statement is false of the code; the exceptions (nan at the top with A3>0, nan at the bottom with A2=A1, None with A2<0) are proved to be exactly where valid soil parameters give no number."
 },
 "C130": {
  "note": "C130_pair is the full statement for A3>0, any number of terms; for the default A3=0 the code is wrong (C130_no_decay_partial: constant in time)."
 },
 "C131": {
  "note": "C131_solution_partial holds for all columns without matrix entries below 1e-10 at a root; C131_negation: with such entries the code zeroes them and gives no result although the root is correct."
 },
 "C132": {
  "note": "Assumes no matrix entries below 1e-10 (see C131)."
 },
 "C133": {
  "note": "Assumes no matrix entries below 1e-10 (see C131)."
 },
 "C134": {
  "note": "Exact effect of the search start; the example beside it (a layer of 5/296) has a run in which ten roots are missed."
 },
 "C135": {
  "note": "partial: the documented behaviour is false of the code; proved are the failures."
 },
 "C136": {
  "note": "partial: the settlement file contains avp; C136_negation is a run where they differ."
 },
 "C137": {
  "note": "partial: the property is false of the code; proved: tpor has no effect."
 },
 "C138": {
  "note": "partial: the property is false of the code; proved: results do not depend on kv, mv, gamw."
 },
 "C140": {
  "note": "partial: the property is false of the code; proved: the exact factor 1/2 and the equation whose transform is inverted."
 },
 "C141": {
  "note": "Missing for the full claim: that the modes found are the first nterms ones (false in general, C144_negation) and that the starting value tends to the uniform pressure."
 },
 "C144": {
  "note": "Describes a defect: C144_missed in general, C144_negation a concrete uniform layer."
 },
 "C149": {
  "status": "partial",
  "note": "The documented meaning is false of the code (documentation error); the pressure actually imposed is proved, with the exact times at which the two agree."
 },
 "C147": {
  "note": "Hypotheses: numpy.linalg.eig is right and gives real eigenvalues (contract IsEig; C151 shows it satisfiable for all physical soils), no resonance (there the code divides by zero)."
 },
 "C152": {
  "note": "np.math.factorial overflow of floats beyond 170 terms in the array branch is outside the real-number model."
 },
 "C154": {
  "status": "partial",
  "note": "Profile/mean-head correspondence, bounds and refusals proved; the English claim 'bad arguments are refused' fails for s > n in non_darcy_beta_constant: C154_beyond proves the negation."
 },
 "C157": {
  "status": "partial",
  "note": "Proved for n a number; C157_first_argument proves the defects for piecewise beta without keyword n and the missing default of nflow."
 },
 "C158": {
  "note": "Holds for every run whose eigenvalue pairs leave no layer straight (C163 covers the rest); partial because the search for eigenvalues may miss modes, so the initial pressure is only the best approximation by the modes found."
 },
 "C159": {
  "note": "As C158 without drain; partial for the same reason."
 },
 "C163": {
  "note": "C163_happens is a run with a sensible soil and the true Bessel series where all averages are nan."
 },
 "C164": {
  "note": "The code is wrong here: it hands over the averages under the name of the settlements; C164_negation is a run where the two differ."
 },
 "C165": {
  "note": "odeint is not modelled: a run is any exact solution of the vector field from zeros at the first time. The cubic term is the quadrature sum (exactness of the rule: C167), not the exact integral."
 },
 "C170": {
  "note": "False in general: normalise_w=True and False both return raw deflections (wofx_partial); only None returns normalised ones; without L the default raises."
 },
 "C171": {
  "note": "False in general: the load is right at all times only as long as it is on the beam; ghost load proved after it has left."
 },
 "C174": {
  "note": "False in general: point_loads_on_beam ignores t0, and x0 for a vehicle going left. Proved for t0 = 0; the exact error is proved in general (C174_point_loads_error), with a concrete case."
 },
 "C176": {
  "note": "Partial: the documented condition (linear beam) is false of the code: k3=0 alone or k3_norm=0 alone is refused (C176_linear_refused)."
 },
 "C178": {
  "note": "Partial: the phase is divided by E*A in the code; exact result for all phases in C178_phase_error, concrete negation C178_phase_case."
 },
 "C179": {
  "note": "Partial because the code ignores k3bar (C179_k3bar_ignored), and because of C174/C178; the exact equation it does solve, without extra hypotheses, is C179_equation_of_motion_general. Run = exact solution of the vector field (odeint trusted)."
 },
 "C183": {
  "status": "proved",
  "note": "The nquad=None part of the documentation is refuted: C183_nquad_required."
 },
 "C184": {
  "note": "Eload_coslinear with complex eigenvalues is refuted: C184_Eload_cos_complex_fails. The complex expressions of the code are generated from the source (tools/gen_complex.py)."
 },
 "C185": {
  "note": "np.linalg.eig is a parameter with the contract A v = v diag(eigs) only. Resonant parameters (an eigenvalue 0 or plus/minus i v beta) are excluded; C186 shows damped beams have none."
 },
 "C187": {
  "status": "proved",
  "note": "Model over exact reals; overflow and nan are not modelled."
 },
 "C192": {
  "status": "proved",
  "note": "Both parts are findings about the code: the overwritten assignment (lines 591/599) and a concrete loading past yield."
 },
 "C193": {
  "status": "proved",
  "note": "C193_default_logRS_fails: the documented default logRS=0 cannot run."
 },
 "C196": {
  "status": "proved",
  "note": "C196_dry_lookup_off_by_one and C196_lookup_outside are defects, stated exactly."
 },
 "C198": {
  "status": "proved",
  "note": "The documentation of DWc is refuted (C198_DWc_is_not_derivative); what DWc is the derivative of is proved."
 },
 "C200": {
  "status": "proved",
  "note": "The optional name is refuted: C200_name_required."
 },
 "C201": {
  "status": "proved",
  "note": "C201_silent_nonconvergence: the error for too many iterations is never raised."
 },
 "C202": {
  "status": "proved",
  "note": "The documented meaning of Npoint_refine and npp_refine is refuted."
 },
 "C205": {
  "status": "proved",
  "note": "The comment that suction below the water table is zero is refuted by C205_suction."
 },
 "C206": {
  "status": "proved",
  "note": "C206_gap_fails / C206_ordinary_profile_fails: crash for ordinary profiles."
 },
 "C210": {
  "status": "proved",
  "note": "The rate law under constant stress is refuted for the code; the exact error is proved."
 },
 "C211": {
  "status": "proved",
  "note": "C211_false_answer: the returned stress need not be the solution; C211_result_overwritten: aliasing of the result."
 },
 "C212": {
  "status": "proved",
  "note": "Varying rates (left endpoint rule in the step method) are not covered; reruns are proved to differ."
 },
 "C213": {
  "status": "proved",
  "note": "Wrong sign of the creep part on unloading is proved."
 },
 "C215": {
  "status": "proved",
  "note": "Conditional on the iteration of each step converging; constant rate."
 },
 "C216": {
  "note": "Partial: tanhtrani/tanhtranib match tanhtran only for a = 0.5 because tanhtran ignores its argument a (C216_position_ignored, exact error proved)."
 },
 "C217": {
  "note": "Partial: smooth only when the rise does not exceed the length; otherwise the jump is proved (C217_steep_jump)."
 },
 "C219": {
  "note": "Partial: the code does not order the roots of np.roots; decay is characterised exactly by the order, existence of a right order and uniqueness of the bounded response are proved. np.roots is an oracle."
 },
 "C242": {
  "note": "Holds after reads, products and quotients; fails after an in-place addition (C242_negation)."
 },
 "C243": {
  "note": "Proved when all three runs lack a boundary list or none does; false otherwise (C243_negation): with all four boundary lists given the program drops their effect on the soil. The differences of compressibilities computed by PolyLine subtraction are assumed to be profiles (SettleReady; see C14)."
 },
 "C232": {
  "status": "partial",
  "note": "The docstring (each row a separate sequence) is false of the code: C232_not_separate is a concrete case, C232_stopped the general one (a zero denominator in one row leaves every row unextrapolated). C232_rows_partial: true when no denominator of any row vanishes; C232_single: in full for one row."
 }
}