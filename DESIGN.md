# Formal model of lucciver/geotecha in Lean 4

## 1. Approach

Shallow model: each modelled Python function is a Lean function that follows the
code branch by branch.  Python exceptions are values (`Except`/`Option`), numpy arrays are
`List`s, attribute mutation is state passing.  Every definition cites the file and lines it
models.  `Verif/<Area>/Model.lean` holds the model, `Spec.lean` the independent specification,
`Lemmas*.lean` helper proofs, `Props*.lean` the property theorems (and non-vacuity examples).

### Arithmetic
* Piecewise-linear code, geometry, Shanks, element sizes: exact arithmetic in an arbitrary ordered
  field `K` (so it can be *run* at `ℚ`), or at `ℝ` when the specification is a Mathlib integral.
* Code using `exp`, `sin`, `cos`, `log`, powers: real numbers `ℝ` with Mathlib's functions.
* IEEE floating point is not modelled: a theorem says that the formula in the source is right in exact
  arithmetic, not that rounding is small.  nan/inf are modelled only as an explicit error value where
  the code's control flow reaches a division by zero that matters for a property.

## 2. Trusted base
* Lean 4.33.0 kernel; Mathlib definitions used in statements (interval integral, `Real.exp`, ...).
* Axioms: only `propext`, `Classical.choice`, `Quot.sound` (checked by `vcheck`).
* The reading of the Python source (no code is executed here): numpy semantics as documented
  (`np.diff`, `np.where`, `np.delete`, fancy indexing, `np.linspace`, `np.lexsort`, views vs copies).

* External routines are parameters with a contract that the theorem states: `scipy.optimize.fsolve` (a root inside a bracket with a sign change,
  `Roots.Spec.Solves`), `scipy.special.jv/yv` (recurrences and Wronskian, `Spec.IsBessel`), `jn_zeros`, `np.linalg.eig/solve/det` (exact), quadrature
  abscissae where they come from numpy.  Concrete instances show that each contract can be met.
* What is modelled, function by function: `COVERAGE.md`, generated by `tools/coverage.py` from the file/line citations in the model.  Not modelled
  at all: plotting to figures and `main` functions, `specbeam.py`, `dingetal2012.py`, `epus.py`, `nogamiandli2003.py`, `shanetal2012.py`,
  `timeout.py`, `integrals_generate_code.py` (the code it generated is modelled), the `*_interactive.py` files, the Fortran and vectorised duplicates.
  Per area, by file: piecewise (`piecewise_linear_1d.py`); speccon (`integrals.py`, `speccon1d*.py` including `_unsat`); mathematics
  (`quadrature.py`, `geometry.py`, `root_finding.py`, `fourier.py`, `laplace.py`, `mp_laplace.py`, `multi_transform.py`, `hankel.py`,
  `transformations.py`); constitutive models (`void_ratio_stress.py`, `void_ratio_permeability.py`, `velocity_hydraulic_gradient.py`, `swcc.py`);
  consolidation (`terzahi.py`, `tangandonitsuka2000.py`, `luetal2010.py`, `xieandleo2004.py`, `dengetal2013and2014.py`,
  `schiffmanandstein1970.py`, `cosenzaandkorosak2014.py`, `zhuandyin2012.py`, `smear_zones.py`); `inputoutput.py`; `one_d.py`.

## 3. Plan per property

| id | what is modelled | how proved |
|---|---|---|
| C01 | `segment_containing_xi`, `interp_x_y` | equality with recursive polyline evaluation (left/right continuous), induction over the list |
| C02 | same | convex combination, list membership |
| C03 | + `interp_x1_x2_y1_y2`, `convert_*` | both equal the same spec |
| C04 | `convert_*` | induction over segments |
| C05 | `segments_between_xi_and_xj`, `integrate_x_y_between_xi_xj` | Mathlib interval integral, sum over adjacent intervals |
| C06 | same | FALSE of the code at interior nodes: witness + partial |
| C07, C08 | segment forms, product cubic | as C05; cubic antiderivative |
| C09 | `start_index_of_*` incl. `np.delete` by position | FALSE with repeated identical points: witness + partial |
| C10 | greedy loop | loop invariant; FALSE for spikes returning to the start: witness + partial |
| C11 | PolyLine state with caches | invariant over operation sequences |
| C12 | in-place `iadd` on cached view | FALSE: witness (negation for all c≠0) |
| C13, C14 | merge loop with tolerance | induction on well-founded loop |
| C15, C16 | subdivision | induction, geometric sums |
| C17..C21 | monotone helpers | induction; C20 FALSE (index compared instead of value) |
| C22 | Shanks | field identity |
| C23, C24 | GL tables as rationals | kernel evaluation of all moments for each table, lifted to all polynomials |
| C25, C26 | Newell normal, area | telescoping over closed vertex lists; C26 FALSE when y dominates |
| C51 | GK tables, `gk_quad` | as C23, C24 |
| C52, C54 | centroid, second moments | boundary sums = fan sums (triangle means as Mathlib integrals); FALSE for axis-parallel planes |
| C53 | `polyhedron_volume`, `make_hexahedron` | discrete divergence theorem, edge sums cancel on a closed surface |
| C27..C31 | closed forms transcribed from the source | FTC with explicit antiderivatives; layer sums |
| C32 | `m_from_sin_mx` | trigonometric facts |
| C42..C47 | `dim1sin_abf/DD_abDDf/abc/D_aDb/a_linear_between/avg_between/dim1sin` (formulas machine-translated by tools/gen_integrals.py) | FTC, layer sums; C45 in weak form |
| C48..C50 | `Eload_coslinear`, `EDload_coslinear`, `Eload_sinlinear` (machine-translated) | as C30, C31: one engine lemma for segment selection, FTC per segment |
| C33..C36 | constitutive models | real analysis |
| C55..C57 | piecewise linear models | polylines as point lists; interpolation = membership in the polyline graph; C57 FALSE at the lowest point |
| C37, C69, C70 | `mu_*`, `k_*` of smear_zones.py over ℝ | spec: mean of the radial-flow pressure integral; reduced to one weighted integral (integration by parts off a countable set), then FTC per zone; double-loop sum exchange |
| C71 | `u_*` | pressure integrals per zone; mean and continuity from the spec |
| C72 | orderings, `drain_eta` in the spacing | monotonicity of the weighted integral; `n² μ` increases |
| C73 | `re_from_drain_spacing`, `mu_well_resistance` | bounds on π and √3; integral over depth |
| C74..C76 | `dim1sin_f/avgf/integrate_af`, `_make_avp`, `_make_set` | loops over loads to sums; layer sums |
| C77 | speccon1d_vr.py `_make_m/gam/psi`, `make_E_Igamv_the*`, `_make_por` and the speccon1d.py functions they call; `np.linalg` as the contract `EigenSystem` | Duhamel integrals solve the modal equations (integrated in time); summed into the weak form of the PDE (SpecVR.lean) |
| C78 | the matrices of C77 | orthogonality of the sines, perturbation by the 1e-8 cut, spectral theorem |
| C79 | as C77 | linear ODE uniqueness |
| C80 | speccon1d_vrw.py `_make_psi_w`, `_make_psi`, `_make_eigs_and_v` (correction), `make_E_Igamv_the`, `_make_por`; `np.linalg.inv/eig` as the contract `VRWArrays.Made` | as C77, with the drain coefficients defined from the soil coefficients by the inverse matrix; SpecVRW.lean |
| C81 | `_make_porwell`, `dim1sin_foft_Ipsiw_the_BC_D_aDf_linear` | exact expression of the reported field, inserted into the balance; partial, with the errors quantified |
| C82 | `_make_avp`, `_make_set` | as C76, lemma `outputs_of` |
| C83 | the matrices of C80 | Schur complement of positive definite forms |
| C84 | `terzaghi_1d`, `terzaghi_1d_flowrate` (Verif/Consol) | term by term derivatives; Parseval with `∑ 2/M² = 1`; geometric bound of the tail |
| C85 | as C84 | integral of the sine series; derivative of the sum; telescoping bound of `∑ 2/M²` |
| C86 | `luetal2010` with the smear functions of Verif/Smear | algebra of each mode, term by term derivatives |
| C87 | as C86 | Parseval with `∑ 1/M⁴`, alternating `1/M³`; exponentials tend to zero |
| C88 | `tangandonitsuka2000` with `pEload_sinlinear` of Verif/Speccon | reuse of the modal equation of C30 (`LoadHistory.solve`) per mode |
| C89 | as C88 | integral of C88; partial: at a load step the code mixes load before and pressure after (negation proved) |
| C90 | speccon1d_vrc.py `_make_psi`, `_make_eigs_and_v`, `make_E_Igamv_the` and parts, `_make_por`; `np.linalg.inv/eig` as the contract `VRCArrays.Made` | the three rows of the 3x3 block inverse give soil, column, interface coefficients; SpecVRC.lean; partial, exact error stated |
| C91 | `_make_avp`, `_make_set` | as C76, lemma `outputs_of` |
| C92 | `_make_por` (pors, porc), `_make_avp` (avps, avpc) | rows of the block inverse; partial, code omits 1/dT |
| C93 | the matrices of C90 | energy identity `c·psi c = energy(soil, column, exchange)` through the block inverse |
| C94 | speccon1d_unsat.py `_make_m`, `_make_gam`, `_make_psi`, `make_E_Igamv_the` and parts, `_make_por`; `np.linalg` as the contract `UnsatArrays.Made` | each phase reduced to a problem of speccon1d_vr (`auxIn`), blocks recombined; SpecUnsat.lean; partial, negation and what happens instead stated |
| C95 | `_make_avp`, `_make_set` | C75, C76 for each phase |
| C96 | `_make_set` (setw, seta) | exact error; partial, negation |
| C97 | matrices of C94 | definiteness of the two blocks of psi |
| C98 | swcc.py `w_from_psi`, `dw_dpsi` of both curves | chain rule, `HasDerivAt` |
| C99 | as C98, `__init__` of Pham-Fredlund | products of monotone factors; limits at 0+; partial, negation |
| C100 | `k_from_psi` (midpoint sums) | midpoint sums of a continuous function converge (uniform continuity); strict monotonicity of the ratio of integrals |
| C101 | `kwrel_from_discrete_swcc` with numpy indexing | closed form of the sums (geometric mid points), sums of signed terms; partial, negation below the data |
| C102 | `karel_air_from_saturation` | monotone real powers |
| C103 | root_finding.py `find_n_roots` as a state machine, `fsolve` an oracle with contract `Spec.Solves` | loop invariants over all runs; partial, negation (cubic with close roots) |
| C104 | as C103 | phases: sign constant near the start, resets shrink dx, counter bounded; converse: a start on a root cycles |
| C105 | as C103 | invariant on the first entry; false of the code |
| C106 | `fixed_point_no_accel` | induction over iterations; contraction estimates; partial, negation |
| C107 | xieandleo2004.py `u_*`, `e_*` as finite sums over the terms; separate spec `Spec.LargeStrain` (soil law, Darcy, mass balance in material coordinates) | the exponential of the pressure solves the heat equation; positivity of every partial sum by Abel summation and `sin x Σ sin (2k+1)x = sin² nx` |
| C108 | `e0`, `efinal`, `settlement_final`, `initial_effective_stress` | derivatives, limits, Parseval |
| C109 | `settlement_*`, `vs_*`, `xi_*`, `Us_*`, `total_pore_pressure_*` | integration and differentiation of the sums |
| C110 | `vw_*` | Darcy flux of C107 against `vs`; PTPB wrong: exact error, negation |
| C111 | `Us_*`, `t_from_Us_*` (`np.logspace`, `np.interp` modelled) | monotone sums; bracketing in the interpolation table |
| C112 | `Up_*` (quad = exact integral) | convexity of exp |
| C113 | `effective_stress_*`, `total_stress_*` with the module's name `qu` as a parameter | case analysis; false of the code |
| C114 | `rgb_shade`, `rgb_tint`, `depth_to_reduced_level` over any ordered field | algebra |
| C115 | dicts as association lists, `copy_dict`, `split_sequence_into_dict_and_nondicts` | induction over the entries |
| C116 | `row_major_order_reverse_map` for any number of dimensions | induction over the shape; `place` is an order isomorphism |
| C117 | `MarkersDashesColors`: tables, constructor, `__call__` | lookups through the updates; cyclic indexing |
| C118 | `plot_data_in_grid` (a subplot is what was plotted in it), `iterable_method_call`, `apply_dict_to_object`, `save_figure` | loop invariants; sharing is false of the code |
| C119 | `FourierTransform.__call__`, all branches on the flags (Transform/ModelFourier.lean); quad is the integral | splitting integrals into halves by symmetry |
| C120 | the same | exact values of the wrong branches; concrete negation |
| C121 | the same, twice | Mathlib's inversion theorem |
| C122 | `Talbot` of laplace.py and mp_laplace.py (Transform/ModelTalbot.lean) | derivative of the contour; nodes are odd multiples of π/N |
| C123 | the same | algebra of the rule; conjugate pairs of nodes |
| C124 | `ntransform`, `_NTransform`, `_OptFunc` (Transform/ModelMulti.lean); transforms are procedures that ask for values | induction on depth with the error as state |
| C125 | `HankelTransform`, `vhankel_transform` (Transform/ModelHankel.lean) on top of the models of gk_quad, gl_quad and shanks | adjacent intervals; sorted lists of limits |
| C126 | the same | algebra of powers |
| C127 | `Consol/Deng.lean`: `dengetal2013`, all four branches | each branch is differentiated in `t`; the well resistance integral is evaluated with the fundamental theorem of calculus |
| C128 | same | comparison of `log u` from the differential equation of C127 |
| C129 | same, nan as `none`, Python `None` as outer `none` | case analysis; exceptions characterised (partial: false of the code) |
| C130 | `dengetal2014` | termwise: soil equation in `t`, drain equation in `z`, boundary values of `sin`/`cos`; `A3 = 0` shown constant |
| C131 | `SchiffmanAndStein1970`: `_find_beta`, `_make_BC`, coefficients, `Am`, `Tm`, `por` (roots from the `find_n_roots` model) | rows of the matrix are the interface conditions, null vector = mode; duhamel integral per mode; orthogonality of modes by integration by parts over the layers |
| C132 | `_calc_settle_and_avp` | closed formulas are integrals (fundamental theorem per layer), exchanged with the finite sums |
| C133 | same | Bessel's inequality for the modes and a comparison principle for `D + lam * int D = L` |
| C134 | same, `x0 = 0.1/H^2` | every found root exceeds `x0`; Bessel's inequality with one more mode |
| C135 | boundary codes and coefficients | the vector `(1,0,1,0,...)` is in the kernel of the reduced matrix of uniform soil |
| C136 | `_data_*` of `make_output` | unfolding; concrete run for the difference |
| C137 | `cosenzaandkorosak2014`: `tpor` | both branches of the model give `t` |
| C138 | same: `lamda_n` is computed and not used | equality of the results for all soils |
| C139 | same, on the `Talbot` model | symmetry of `sin((2j+1) pi x)`; zero times from C122 |
| C140 | same | integral of each term; the transform solves the Laplace image of the fractional equation (`SpecCosenza.lean`) |
| C141 | zhuandyin2012.py complete (Bessel functions and the root solver are parameters with a contract) | each depth function is a mode of the soil (`SpecVary.lean`): product rule in `y = x^(1-n/2)`; coefficients are those of the projection; superposition. Partial: that the first `nterms` modes are the ones found, and that the initial value tends to 1 with `nterms` |
| C142 | same | `total_w`, `total_w2` (antiderivatives through Lommel's integrals), coefficient by coefficient |
| C143 | same | Bessel's inequality for the modes found (`VaryModes.lean`) |
| C144 | same + root_finding.py | Bessel's inequality with the missed mode added; concrete case: a uniform layer whose degree of consolidation at time 0 is above 0.8 |
| C145 | same | case analysis on the model |
| C146 | load dictionaries, the failure order of `shanetal2012` | case analysis of the validation loop and the branches |
| C147 | `shanetal2012` over exact reals, eig as an oracle | modal ODEs from N v = v diag(eigs), projections by sine orthogonality; uniqueness by ODE uniqueness |
| C148 | same | two Galerkin solutions coincide (C147_unique) |
| C149 | same | documented load refuted, real load proved (partial: the documentation is wrong) |
| C150 | same | trace and determinant give negative eigenvalues; limits of the closed forms |
| C151 | closed-form eigenvalues in the code | direct algebra |
| C152 | `_g`, `_gbar`: series loop, recursion, checks (Smear/ModelND.lean) | term by term induction on the cumulative product |
| C153 | same | termwise derivatives; signs of binomial coefficients, closed form of their partial sums, Mathlib binomial series for the limit |
| C154 | `non_darcy_beta_*`, zones as lists | integration by parts (average of a head = one integral), induction over zones, integrated truncation bound |
| C155 | `non_darcy_u_piecewise_constant` | induction over zones gives the head at any radius; affine average |
| C156 | same functions and `mu_piecewise_constant` | monotonicity of the integral; dominated convergence for the exponent limit |
| C157 | `non_darcy_drain_eta` incl. argument lookup | change of variables to drain radii, power identities; continuity of eta in beta |
| C158 | nogamiandli2003 `make_output` with drain (`Consol/Nogami*.lean`), spec `SpecCell.lean` | modes are products of a Bessel part (contract `Spec.IsBessel`, met by the power series of `BesselZero.lean`) and a layered part; orthogonality from both Sturm-Liouville problems; time part from C90. Partial: the search may miss modes, so `S` is the best approximation of 1 by the modes found |
| C159 | the same without drain | as C158 with the layered part only |
| C160 | `avp`, `set` with drain | integrals of the modes over layers and ring |
| C161 | `set` over time | Bessel inequality for the modes found, bounds on the time part |
| C162 | `_setup` defaults, `phia0`, `phi_i_check` | case split |
| C163 | `beta = 0` in `_calc_avp`, in the characteristic curve | nan spreads through sums; a run where the search lands on the false root |
| C164 | `_data_avp`, `_data_set` | case split; a run where the two differ |
| C165 | DingEtAl2012, simply supported: normalisation, vector field, wofx | physical Galerkin equations by orthogonality of the sines and the unit algebra |
| C166 | same run | derivative of the energy, mode balances weighted with the velocities |
| C167 | quadrature nodes and weights | transposed Vandermonde matrix; distinct Chebyshev nodes |
| C168 | constructor with BC CC / FF | repeated node, determinant zero; explicit two point rule |
| C169 | phiCC, phiFF | derivative cycle, Green identity, closed antiderivative of the square |
| C170 | wofx flag (negation) | equality of the outputs for True and False |
| C171 | load beyond the end (negation) | reflection of the sine |
| C172 | weights positive | Clenshaw-Curtis: discrete cosine orthogonality, bound of the moments |
| C173 | `convert_to_specbeam` of a vehicle | window of every axle against the piecewise history |
| C174 | `point_loads_on_beam` | exact error in general; right for `t0 = 0` (partial) |
| C175 | `time_axles_pass_beam_point` | unique solution of the position equation |
| C176 | `SpecBeam.__init__` gate and end conditions | case analysis on the options; refusal of `k3=0` alone proved |
| C177 | `SpecBeam.__init__` moving loads (optional lists, zip, defaults) | list induction; the spec compares positions at all times |
| C178 | `SpecBeam.__init__` stationary loads, PolyLine scaling, `vectorfield` part | interpolation commutes with positive scaling; phase error exact |
| C179 | `time_independant_matrices`, `vectorfield`, `calulate_qk` (contract: exact ODE solution) | C43/C42 integrals, change of variables, chain rule |
| C180 | as C179 | quadratic forms of the matrices; derivative of the energy; monotonicity from the sign of the derivative |
| C181 | `wofx` | direct |
| C182 | both vector fields | orthogonality makes the matrices diagonal |
| C183 | both vector fields | Lipschitz on bounded sets + Gronwall; mass matrix positive definite |
| C184 | complex branches of `Eload_linear`, `Eload_sinlinear`, `Eload_coslinear` | expressions generated from the source; fundamental theorem of calculus per segment with complex exponentials |
| C185 | `runme` with `use_analytical=True`: block matrices, `np.linalg.eig` as a parameter, load matrices, modal sum, imaginary check | kernel v exp(-Λr)(Γv)⁻¹ real by ODE uniqueness; Duhamel; equality with the numerical run by C183 uniqueness |
| C186 | the same matrices | quadratic eigenvalue problem λ²m − λd + k = 0 with positive Hermitian forms |
| C187 | epus.py `Drying`, `Wetting`, `Loading`, `Unloading` as state functions on lists of pore groups (Constitutive/Epus.lean) | pointwise relation between old and new groups, induction over the history |
| C188 | same | case analysis per group; histories by induction |
| C189 | same, `Changevolume` | invariant `Settled` kept by every operation |
| C190 | same | monotonicity of the log volume law under ordered indexes |
| C191 | same | the volume law is a function of current sum and yield stress (C189) |
| C192 | same | direct computation; concrete two-group state |
| C193 | same, `Calresults` | totality by invariant `Valid`; failure by evaluating the slurry set-up |
| C194 | `_Calresults_scalar` outputs | non-negative sums over groups, filled part at most the whole |
| C195 | same | induction over the steps of the path |
| C196 | `DegreeofsaturationSWCC`, `RfSr_value` (list index with Python's negative wrap) | floor algebra; induction over histories |
| C197 | `Calresults` twice | relational induction: runs from two table contents agree once the tables are refilled |
| C198 | `Wc`, `DWc` | derivative calculus |
| C199 | `SlurryPoreSize`, `DryPoreSize` | closed form of the intersection, monotonicity |
| C200 | `StressPath`, `DataResults` (Constitutive/EpusProfile.lean) | list induction |
| C201 | `EpusProfile.calc` iteration | fuel induction; surface stress is the surcharge after one iteration |
| C202 | `calc`, `_refine` | lists only enter through zip; length of zip |
| C203 | `_blank_profile` | np.unique specification; sorted list lemmas |
| C204 | `calc` | invariant of one iteration; trapezoidal sum bounds |
| C205 | same | the reported value is the last point of the stress path (C195) |
| C206 | `compression_indexes` | definition unfolding per depth; C193 for success; log10 of a non-positive target for failure |
| C207 | `water_permeability`, `air_permeability` | C204 ranges; power monotonicity |
| C208 | void_ratio_stress.py `YinAndGrahamSoilModel.initial_conditions` (Constitutive/ModelYG.lean); specification SpecYG.lean | algebra of log and exp, case split |
| C209 | `e_from_stress`, `_inc_from_stress` as state transitions | closed form solves the ODE; uniqueness by a conserved quantity; list induction |
| C210 | constant stress branch (result of `np.power(..., out=copy)` lost) | computation, conserved quantity |
| C211 | `stress_from_e`: scipy `fixed_point` with aliased `p1`, `p2`; buffers on a heap | fuel induction; antitone map; concrete 2-cycle |
| C212 | `CRSS` by steps; `restore` of `_igral` by reference | grid lemma, C209 |
| C213 | `av_from_stress` | derivative uniqueness |
| C214 | re-initialisation and reset | simulation relation on objects |
| C215 | `CRSN` by steps; right hand sides given to odeint | list induction over C211; algebra |
| C216 | specbeam.py `tanhtran`, `tanhtrani`, `tanhtranib` (Beam/Transition.lean) | monotonicity and limits of tanh, artanh |
| C217 | specbeam.py `reverse_curve_transition` (Beam/Transition.lean, TransitionProps, TransitionClaims) | half angle formulas, gluing of derivatives, limits |
| C218 | specbeam.py `moving_load_on_beam_on_elastic_foundation` (Beam/Infinite.lean); np.roots as oracle | Vandermonde, Lagrange sums, gluing of derivatives |
| C219 | same; decay, half planes, uniqueness (InfiniteDecay, InfiniteRoots, InfiniteUnique) | elimination of exponentials, real factorisation by IVT, peeling first order factors |
| C220 | specbeam.py `point_load_static_defl_shape_function`, `static_point_load_shape`, `multi_static` (InfiniteStatic) | derivatives, FTC, list induction |
| C221 | specbeam.py `DAFinfinite`, `DAFrelative` (InfiniteDaf) | C219 uniqueness, chain rule, powers |
| C222 | speccon1d_vr pipeline of C74–C77 run on three inputs (SpecCombine, Superpose) | the modal coefficients solve a Volterra equation with an invertible mass matrix; right-hand side linear in the loads; uniqueness by Grönwall (Volterra) |
| C223 | the same | C222 with coefficients 1, 0 and 0, 0 |
| C224 | the same, with the tolerance of `_make_gam`, `_make_psi` not acting | dT cancels in the Volterra equation |
| C225 | the same for drn = 0 (Mirror) | sin(iπ(1-z)) = ∓ sin(iπz): signed coefficients solve the mirrored equation, uniqueness |
| C226 | epus.py correction factors and the flag `errocc` (EpusFlag) | case analysis against a separate formula, any over the groups, invariant of histories |
| C227 | speccon1d_vrw pipeline of C80–C82 run on three inputs (SuperposeVRW) | as C222; the inverse matrix is determined by the drain matrix |
| C228 | `make_all`, `make_time_independent_arrays`, `make_time_dependent_arrays`, `make_output` of speccon1d_vr as one function from the input attributes to the output tables (`Verif/Speccon/Run.lean`); np.linalg is a parameter with the contract `KeepsContract` | inversion of the monadic program, C76, C77, C78 |
| C229 | the index attributes (slice or list of integers) of the output | arithmetic of `range(start, stop, step)` with clipped bounds |
| C230 | `layer_coords` over an ordered field with floor | equality with a recursion over the layers, chain invariant |
| C231 | `__mul__`, `__truediv__`, `__rtruediv__`, `__eq__`, `__ne__` of PolyLine | induction over the points, convexity of 1/y, counterexamples for symmetry and for the reciprocal between corners |
| C232 | shanks on 2-d data: model with the test over all rows, an inductive specification of the iterated transformation | induction over the passes; counterexample evaluated |
| C233 | vcosine_transform: segments between zeros of the cosine, gl_quad on each | sum over segments; integration by parts for the tail; cumsum of a geometric sequence |
| C234 | v2dcosine_transform as a four-fold sum with extrapolation inside | homogeneity of sum and of shanks |
| C235 | `make_time_dependent_arrays`, `make_output` of speccon1d_vrw as one function from the arrays to the list of tables (`Verif/Speccon/RunOther.lean`) | inversion of the monadic program, C81, C82 |
| C236 | the same for speccon1d_vrc | C91, C92 |
| C237 | the same for speccon1d_unsat | C95–C97 |
| C238 | timeout.py as a transition system of caller, process, pipe and clock (`Verif/IO/Timeout.lean`); Python multiprocessing (semaphore of the queue, feeder thread, exit after the feeder has ended) is part of the model | inductive invariant over all executions, reachability |
| C239 | the arrays of every `..._for_plotting` method (`Constitutive/Curves.lean`): linspace, logspace, searchsorted and the replaced point | `Spec.Graph` (lengths, on the curve, in range, ordered, both ends) for every model; the replaced point keeps the order by induction on the list; concrete IndexError above the range |
| C240 | runs saving into one directory as a transition system (`IO/SaveRuns.lean`): choosing the stem, `isdir`, `mkdir`, `open`, write, and crashes, interleaved; the list of files of `_save_data` and `_save_figures` | inductive invariant over any schedule (stems unique, marks in the directory, contents of finished files), a rank for progress, sequential histories shown to satisfy the side condition; concrete races as negation |
| C241 | arrays, modal coefficients and outputs of speccon1d_vrc (model of C90-C93) for three inputs | the blocks of bet are determined by the integrals over soil and column (right inverse unique); the modal Volterra equations then have the combined right-hand sides; outputs are linear in the coefficients |
| C242 | the p-functions as readers of the lazily filled PolyLine object (Piecewise/Wrappers.lean) | reads keep points and segments (C11); both forms describe one curve (C03, C05, C07); stale segments after an in-place addition give the negation |
| C243 | superposition and causality of `Speccon1dUnsat` (SuperposeUnsat.lean), soils and loads compared in SpecUnsatCombine.lean | the modal Volterra equations of three runs have the same matrices and combined right hand sides (`volterra_combine`); fails when all four boundary lists are given in the sum only |
| C244 | `process` with arbitrary `open`, object and methods as state transformers; the trace of what was opened, made, closed and called | induction on the methods; shape of every trace |
| C245 | `SimpleTimer` as three dictionaries over a history of timed calls | induction on the history, latest start as an independent predicate |
| C246 | process-wide print hook; `string_of_object_attributes` with arbitrary rendering that may raise | induction on the history; both outcomes |
| C247 | `tint_colors`, `shade_colors` over histories, exceptions caught | composition of affine maps, by induction |
| C248 | `apply_markevery_to_sequence_of_lines` with an arbitrary generator keeping to the documented ranges | induction on the draws |
| C249 | `lineSub` (`PolyLine.__sub__`) applied to two depth profiles: `Speccon/LineSub.lean` | `removeSuperfluous` leaves a line without nearly collinear neighbours unchanged (induction over its loop); then the merge theorem behind C14 with sign -1; the node set, steps and values give a `Profile`; discharges `SettleReady` for layered soils. |
| C250 | `drawTime`, `drawDepth` (Plot/Loads.lean): subdivision, cosine factor, levels | blocks of the subdivision: sublist, ends, on the line, chain of distances |
| C251 | `plotGenericLoads`, `Inputs.plotLoads`: groups, time range, style cycle, labels | induction over groups and loads; fold of least and greatest times; exact errors |
| C252 | `plotMaterials`, `plotMaterialsVR` | induction over the materials, from C250 |
| C253 | `vsDepth`, `vsTime`, `columns`, styles and labels (Plot/Results.lean) | pointwise lookup in the mapped ranges; exact condition on shapes |
| C254 | `produce` with a heap of the dicts of the user; steps of the five classes | induction over the steps; frame of the heap; concrete negations for shared dicts and second calls |
| C255 | the text printed by code_for_explicit_attribute_initialization, characters and all, and a small reader and evaluator of the printed statements (IO/GenCode.lean) | induction on the attributes: each line is read back to its statement; negations for quotes and backslashes |
| C256 | make_all of the three files over the directory of IO/SaveRuns.lean, with arbitrary methods that may raise and change the object (IO/MakeAll.lean) | frame invariants (folder, names, other files) through sequencing; C38_fresh for the folder; the files one by one |
| C257 | produce_plots, _plot_loads, _plot_materials and the seven figures of results of speccon1d_unsat (Plot/Unsat.lean) | the generic theorems of C251, C252 and C254, applied to the explicit list of figures, groups and labels |
| C258 | `XieAndLeo2004.plot_all` as a list of subplots with their lines, default times and depths (Consol/XieLeoPlot.lean) | with the name unbound every call raises; with it bound membership of each point, by place; default times by bracketing in the logarithmic table (30000^(1/99) ≤ 1.11) |
| C259 | `xylabel_subplots` with the labels set before an exception, the sheets of `demo_styles`, `demo_options` as lists of samples, `construct_styles` (Plot/Demo.lean) | induction over the labels; geometry of the cells; fold over the history |
| C38 | `next_output_stem` with a small regular expression matcher | captured number grows with the digit run; induction over call histories; FALSE for metacharacters |
| C39 | `SyntaxChecker` over an AST with name/attribute/call/other nodes; word lists generated | mutual induction over trees; FALSE through assigned-but-dead names |
| C40, C58..C63 | attribute checks over objects as partial maps; setups generated from source | induction over rule lists; C62 instantiates generic lemmas by kernel evaluation of the rule tables |
| C41, C64, C65 | process state (cwd, directories, log level), bodies are arbitrary state functions | case analysis, induction over nesting and file list |
| C66..C68 | `hms_string` (in ℚ), `save_grid_data_to_file` (heap of dicts), `string_of_object_attributes` | floor algebra; induction; independent line reader |

Sections below are extended as the model grows.

Quadrature: table entries are the exact decimals of the source; `xij[gen_slice]` (indexing with a list of slices) has its
old-numpy meaning; broadcasting of unequal `a`, `b` is not modelled; `shanks` on integer arrays (truncating in-place
assignment) and its mutation of the argument are not modelled.
Smear zones: real arithmetic; scalar arguments (arrays act element by element); `np.isclose` with its default tolerances; `fsolve` and the broadcasting checks are not modelled.
Geometry: `nan` is `none`; `integrate_f_over_*_code` (sympy code generation) is not modelled.
Infinite beam and transitions: exact reals/complexes; `np.roots` is an oracle returning the roots in any order; `np.linalg.solve` exact; division by a zero width and `nan` inputs outside the model.

Yin and Graham model: one soil element, exact reals, positive stresses and times; scipy's `fixed_point` (del2) is modelled from its algorithm with the aliasing of the returned buffer; `odeint` is not modelled (its right hand sides are); `nan` arises only for constant stress; every `method` other than 'odeint' is the step method; plotting is not modelled.

EPUS: exact reals (no overflow, nan or inf); the Fortran implementation, plotting and `save_profile_to_file` are not modelled; `math.log10` of a non-positive number is the ValueError it is in Python.
