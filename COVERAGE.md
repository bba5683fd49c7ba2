# Which functions are modelled

Generated by tools/coverage.py: a function is listed as modelled when a comment in the Lean model cites lines inside its body
(the comment says what is simplified).  Classes are listed method by method.

598 of 730 functions.


## geotecha/beam_on_foundation/dingetal2012.py

modelled: `DingEtAl2012.__init__`, `DingEtAl2012.phiSS`, `DingEtAl2012.phiCC`, `DingEtAl2012.phiFF`, `DingEtAl2012.w`, `DingEtAl2012.vectorfield`, `DingEtAl2012.w_cubed_wi`, `DingEtAl2012.calulate_qk`, `DingEtAl2012.wofx`

not modelled: `dingetal_figure_8`

## geotecha/beam_on_foundation/specbeam.py

modelled: `SpecBeam.__init__`, `SpecBeam.phiSS`, `SpecBeam.phiCC`, `SpecBeam.phiFF`, `SpecBeam.w`, `SpecBeam.vectorfield`, `SpecBeam.w_cubed_wi`, `SpecBeam.calulate_qk`, `SpecBeam.time_independant_matrices`, `SpecBeam.wofx`, `SpecBeam.runme`, `SpecBeam._make_gam`, `SpecBeam._make_psi`, `SpecBeam._make_eigs_and_v`, `SpecBeam.make_time_dependent_arrays`, `SpecBeam.make_E_Igamv_the`, `SpecBeam._make_E_Igamv_the_mvpl`, `SpecBeam._make_E_Igamv_the_stationary`, `SpecBeam.make_output`, `SpecBeam._make_defl`, `MovingPointLoads.__init__`, `MovingPointLoads.setv`, `MovingPointLoads.getv`, `MovingPointLoads.delv`, `MovingPointLoads.point_loads_on_beam`, `MovingPointLoads.convert_to_specbeam`, `MovingPointLoads.plot_specbeam_PolyLines`, `MovingPointLoads.axle_positions`, `MovingPointLoads.plotme`, `MovingPointLoads.animateme`, `MovingPointLoads.time_axles_pass_point`, `MovingPointLoads.time_axles_pass_beam_point`, `DAFrelative`, `point_load_static_defl_shape_function`, `multi_static`, `moving_load_on_beam_on_elastic_foundation`, `DAFinfinite`, `transition_zones1`, `tanhtran`, `tanhtrani`, `tanhtranib`, `static_point_load_shape`, `reverse_curve_transition`

not modelled: `SpecBeam.saveme`, `SpecBeam.load_defl`, `SpecBeam.onClick`, `SpecBeam.plot_w_vs_x_overtime`, `SpecBeam.animateme`, `SpecBeam.defl_vs_time_under_loads`, `align_yaxis`, `dingetal_figure_8`, `SpecBeam_const_mat_midpoint_defl_runme_analytical_play`, `SpecBeam_stationary_load_const_mat_midpoint_defl_runme_analytical_play`, `FIGURE_verify_against_DingEtAl2012_fig8`, `FIGURE_convergence_step_change`, `FIGURE_defl_envelope_vary_velocity`, `FIGURE_DAF_constant_prop`, `FIGURE_DAF_transition_length`, `FIGURE_DAF_transition_length_esveld`, `FIGURE_DAFwrtinf_transition_length`, `FIGURE_DAFwrtinf_transition_lengthrev`, `FIGURE_DAFwrtinf_transition_length_betaconst`, `esveld_fig6p17`, `esveld_fig6p18`, `case_study_PaixaoEtAl2014`, `transition_DAF1`, `transition_DAF1_at_specific_alp`, `transition_zones2`, `FIG_DAF_envelope_vary_beta`, `specbeam_vs_analytical_single_static_load`, `article_figure_01`, `article_figure_02`, `article_figure_03`, `article_figure_04`, `article_figure_05a_05b_05c_07`, `article_figure_06`, `article_figure_08`, `article_figure_09`, `article_figure_10_11`, `article_figure_12`

## geotecha/consolidation/cosenzaandkorosak2014.py

modelled: `cosenzaandkorosak2014`

not modelled: `plot_one_dim_consol`

## geotecha/consolidation/dengetal2013and2014.py

modelled: `dengetal2013`, `dengetal2014`

## geotecha/consolidation/luetal2010.py

modelled: `luetal2010`

## geotecha/consolidation/nogamiandli2003.py

modelled: `NogamiAndLi2003._setup`, `NogamiAndLi2003._calc_derived_properties`, `NogamiAndLi2003.un_normalised_average`, `NogamiAndLi2003.un_normalised`, `NogamiAndLi2003._radial_characteristic_curve`, `NogamiAndLi2003._find_sn`, `NogamiAndLi2003._beta`, `NogamiAndLi2003._calc_phia_and_phidota`, `NogamiAndLi2003._vertical_characteristic_curve`, `NogamiAndLi2003._find_alp`, `NogamiAndLi2003._calc_Cn`, `NogamiAndLi2003._calc_betamn`, `NogamiAndLi2003._calc_Amn_and_Bmn`, `NogamiAndLi2003._calc_Cm`, `NogamiAndLi2003._calc_Cmn`, `NogamiAndLi2003.make_all`, `NogamiAndLi2003.make_output`, `NogamiAndLi2003.produce_plots`, `NogamiAndLi2003._plot_por`, `NogamiAndLi2003._plot_avp`, `NogamiAndLi2003._plot_set`, `NogamiAndLi2003._calc_Tm`, `NogamiAndLi2003._calc_un`, `NogamiAndLi2003._calc_por`, `NogamiAndLi2003._calc_avp`

not modelled: `NogamiAndLi2003.calc`, `NogamiAndLi2003._plot_vert_roots`, `main`

## geotecha/consolidation/schiffmanandstein1970.py

modelled: `SchiffmanAndStein1970._setup`, `SchiffmanAndStein1970._calc_derived_properties`, `SchiffmanAndStein1970.produce_plots`, `SchiffmanAndStein1970._plot_por`, `SchiffmanAndStein1970._plot_avp`, `SchiffmanAndStein1970._plot_set`, `SchiffmanAndStein1970.make_all`, `SchiffmanAndStein1970.make_output`, `SchiffmanAndStein1970._find_beta`, `SchiffmanAndStein1970._characteristic_eqn`, `SchiffmanAndStein1970._make_BC`, `SchiffmanAndStein1970._calc_Bm_and_Cm`, `SchiffmanAndStein1970._calc_Am`, `SchiffmanAndStein1970._calc_Tm`, `SchiffmanAndStein1970.calc_settle_and_avp`, `SchiffmanAndStein1970.calc_por`

not modelled: `SchiffmanAndStein1970.plot_characteristic_curve_and_roots`, `SchiffmanAndStein1970._Tm_integrations`, `SchiffmanAndStein1970._avp_integrations`, `SchiffmanAndStein1970._Am_integrations`, `main`

## geotecha/consolidation/shanetal2012.py

modelled: `shanetal2012`

not modelled: `_integral_for_homogenous_case_linear_initial_condition`, `_integral_for_exp_loading_dt`, `_integral_for_sin_loading_dt`, `_integral_for_exp_loading`, `_integral_for_sin_loading`

## geotecha/consolidation/smear_zones.py

modelled: `mu_ideal`, `mu_constant`, `_sx`, `_kapx`, `mu_overlapping_linear`, `mu_linear`, `mu_parabolic`, `mu_piecewise_constant`, `mu_piecewise_linear`, `mu_well_resistance`, `k_parabolic`, `k_linear`, `k_overlapping_linear`, `u_ideal`, `u_constant`, `u_linear`, `u_parabolic`, `u_piecewise_constant`, `u_piecewise_linear`, `re_from_drain_spacing`, `drain_eta`, `back_calc_drain_spacing_from_eta`, `_g`, `_gbar`, `non_darcy_beta_ideal`, `non_darcy_beta_constant`, `non_darcy_beta_piecewise_constant`, `non_darcy_u_piecewise_constant`, `non_darcy_drain_eta`

not modelled: `scratch`

## geotecha/consolidation/tangandonitsuka2000.py

modelled: `tangandonitsuka2000`

## geotecha/consolidation/terzahi.py

modelled: `terzaghi_1d`, `terzaghi_1d_flowrate`

not modelled: `plot_one_dim_consol`

## geotecha/consolidation/xieandleo2004.py

modelled: `XieAndLeo2004.__init__`, `XieAndLeo2004._derived_parameters`, `XieAndLeo2004.Tv`, `XieAndLeo2004.e0`, `XieAndLeo2004.efinal`, `XieAndLeo2004.settlement_final`, `XieAndLeo2004.initial_effective_stress`, `XieAndLeo2004.u_PTIB`, `XieAndLeo2004.u_PTPB`, `XieAndLeo2004.settlement_PTIB`, `XieAndLeo2004.settlement_PTPB`, `XieAndLeo2004.Us_PTIB`, `XieAndLeo2004.Us_PTPB`, `XieAndLeo2004.Up_PTIB`, `XieAndLeo2004.Up_PTPB`, `XieAndLeo2004.effective_stress_PTIB`, `XieAndLeo2004.effective_stress_PTPB`, `XieAndLeo2004.total_stress_PTIB`, `XieAndLeo2004.total_stress_PTPB`, `XieAndLeo2004.total_pore_pressure_PTIB`, `XieAndLeo2004.total_pore_pressure_PTPB`, `XieAndLeo2004.e_PTIB`, `XieAndLeo2004.e_PTPB`, `XieAndLeo2004.vs_PTIB`, `XieAndLeo2004.vs_PTPB`, `XieAndLeo2004.vw_PTIB`, `XieAndLeo2004.vw_PTPB`, `XieAndLeo2004.xi_PTIB`, `XieAndLeo2004.xi_PTPB`, `XieAndLeo2004.plot_all`, `XieAndLeo2004.t_from_Us_PTIB`, `XieAndLeo2004.t_from_Us_PTPB`, `xie_and_leo_2004_figure_4`, `xie_and_leo_2004_figure_5`, `xie_and_leo_2004_figure_6`

## geotecha/consolidation/zhuandyin2012.py

modelled: `zhuandyin2012`

## geotecha/constitutive_models/epus.py

modelled: `EPUS.__init__`, `EPUS.CVStress`, `EPUS.Wc`, `EPUS.DWc`, `EPUS.DryPoreSize`, `EPUS.SlurryPoreSize`, `EPUS.ChangeSuction`, `EPUS.ChangeWetSuction`, `EPUS.Changevolume`, `EPUS.Drying`, `EPUS.Wetting`, `EPUS.Loading`, `EPUS.Unloading`, `EPUS.DegreeofsaturationSWCC`, `EPUS.RfSr_value`, `EPUS._Calresults_scalar`, `EPUS._Calresults_fortran`, `EPUS.Calresults`, `PoresizeDistribution.__init__`, `CurveFittingSWCC.__init__`, `CurveFittingSWCC.Wc`, `CurveFittingSWCC.DWc`, `StressPath.__init__`, `StressPath._print_steps`, `StressPath.combine_datapoints`, `DataResults.__init__`, `DataResults.__add__`, `DataResults.__radd__`, `EpusProfile.__init__`, `EpusProfile._initialize_stress`, `EpusProfile._refine`, `EpusProfile._stress_from_overburden`, `EpusProfile._update_density`, `EpusProfile._e_and_Sr_from_EPUS`, `EpusProfile._blank_profile`, `EpusProfile.calc`, `EpusProfile.plot_profile`, `EpusProfile.save_profile_to_file`, `EpusProfile.compression_indexes`, `EpusProfile.water_permeability`, `EpusProfile.air_permeability`

## geotecha/constitutive_models/swcc.py

modelled: `SWCC_FredlundAndXing1994.__init__`, `SWCC_FredlundAndXing1994.w_from_psi`, `SWCC_FredlundAndXing1994.dw_dpsi`, `SWCC_FredlundAndXing1994.psi_and_w_for_plotting`, `SWCC_FredlundAndXing1994.k_from_psi`, `SWCC_PhamAndFredlund2008.__init__`, `SWCC_PhamAndFredlund2008.w_from_psi`, `SWCC_PhamAndFredlund2008.dw_dpsi`, `SWCC_PhamAndFredlund2008.psi_and_w_for_plotting`, `SWCC_PhamAndFredlund2008.k_from_psi`, `kwrel_from_discrete_swcc`, `karel_air_from_saturation`

not modelled: `SWCC.w_from_psi`, `SWCC.psi_from_w`, `SWCC.dw_dpsi`, `SWCC.psi_and_w_for_plotting`, `SWCC.plot_model`, `SWCC_FredlundAndXing1994._derive_dw_dpsi`, `SWCC_FredlundAndXing1994._numerical_check_of_dw_dpsi`, `SWCC_PhamAndFredlund2008._derive_dw_dpsi`, `SWCC_PhamAndFredlund2008._numerical_check_of_dw_dpsi`

## geotecha/constitutive_models/velocity_hydraulic_gradient.py

modelled: `DarcyFlowModel.v_from_i`, `DarcyFlowModel.i_from_v`, `DarcyFlowModel.dv_di`, `DarcyFlowModel.v_and_i_for_plotting`, `HansboNonDarcianFlowModel.__init__`, `HansboNonDarcianFlowModel.v_from_i`, `HansboNonDarcianFlowModel.i_from_v`, `HansboNonDarcianFlowModel.dv_di`, `HansboNonDarcianFlowModel.vdrain_strain_rate`, `HansboNonDarcianFlowModel.v_and_i_for_plotting`

not modelled: `OneDimensionalFlowRelationship.v_from_i`, `OneDimensionalFlowRelationship.i_from_v`, `OneDimensionalFlowRelationship.dv_di`, `OneDimensionalFlowRelationship.vdrain_strain_rate`, `OneDimensionalFlowRelationship.v_and_i_for_plotting`, `OneDimensionalFlowRelationship.plot_model`, `OneDimensionalFlowRelationship.__str__`, `DarcyFlowModel.__init__`, `DarcyFlowModel.vdrain_strain_rate`

## geotecha/constitutive_models/void_ratio_permeability.py

modelled: `CkPermeabilityModel.__init__`, `CkPermeabilityModel.e_from_k`, `CkPermeabilityModel.k_from_e`, `CkPermeabilityModel.e_and_k_for_plotting`, `ConstantPermeabilityModel.__init__`, `ConstantPermeabilityModel.e_from_k`, `ConstantPermeabilityModel.k_from_e`, `ConstantPermeabilityModel.e_and_k_for_plotting`, `PwiseLinearPermeabilityModel.__init__`, `PwiseLinearPermeabilityModel.e_from_k`, `PwiseLinearPermeabilityModel.k_from_e`, `PwiseLinearPermeabilityModel.e_and_k_for_plotting`

not modelled: `PermeabilityVoidRatioRelationship.e_from_k`, `PermeabilityVoidRatioRelationship.k_from_e`, `PermeabilityVoidRatioRelationship.e_and_k_for_plotting`, `PermeabilityVoidRatioRelationship.plot_model`, `FunctionPermeabilityModel.__init__`

## geotecha/constitutive_models/void_ratio_stress.py

modelled: `AvSoilModel.e_from_stress`, `AvSoilModel.stress_from_e`, `AvSoilModel.e_and_stress_for_plotting`, `CcCrSoilModel.__init__`, `CcCrSoilModel.e_from_stress`, `CcCrSoilModel.stress_from_e`, `CcCrSoilModel.e_and_stress_for_plotting`, `CcCrSoilModel.av_from_stress`, `PwiseLinearSoilModel.__init__`, `PwiseLinearSoilModel.e_from_stress`, `PwiseLinearSoilModel.stress_from_e`, `PwiseLinearSoilModel.e_and_stress_for_plotting`, `PwiseLinearSoilModel.av_from_stress`, `YinAndGrahamSoilModel.__init__`, `YinAndGrahamSoilModel.initial_conditions`, `YinAndGrahamSoilModel.e_from_stress`, `YinAndGrahamSoilModel._reset_to_initial_conditions`, `YinAndGrahamSoilModel._inc_from_stress`, `YinAndGrahamSoilModel.stress_from_e`, `YinAndGrahamSoilModel.av_from_stress`, `YinAndGrahamSoilModel.CRSN`, `YinAndGrahamSoilModel.CRSS`

not modelled: `OneDimensionalVoidRatioEffectiveStress.e_from_stress`, `OneDimensionalVoidRatioEffectiveStress.stress_from_e`, `OneDimensionalVoidRatioEffectiveStress.e_and_stress_for_plotting`, `OneDimensionalVoidRatioEffectiveStress.av_from_stress`, `OneDimensionalVoidRatioEffectiveStress.plot_model`, `AvSoilModel.__init__`, `AvSoilModel.av_from_stress`, `FunctionSoilModel.__init__`

## geotecha/inputoutput/inputoutput.py

modelled: `SyntaxChecker.__init__`, `SyntaxChecker.visit_Call`, `SyntaxChecker.visit_Name`, `SyntaxChecker.visit_Attribute`, `SyntaxChecker.generic_visit`, `SyntaxChecker._split_string_allow`, `SyntaxChecker.allow_ast`, `SyntaxChecker.allow_builtin`, `SyntaxChecker.allow_numpy`, `SyntaxChecker.allow_PolyLine`, `make_module_from_text`, `copy_attributes_between_objects`, `copy_attributes_from_text_to_object`, `check_attribute_is_list`, `check_attribute_PolyLines_have_same_x_limits`, `check_attribute_pairs_have_equal_length`, `check_attribute_combinations`, `force_attribute_same_len_if_none`, `initialize_objects_attributes`, `code_for_explicit_attribute_initialization`, `InputFileLoaderCheckerSaver._transfer_attributes_from_inputfile`, `InputFileLoaderCheckerSaver._initialize_attributes`, `InputFileLoaderCheckerSaver._determine_output_stem`, `InputFileLoaderCheckerSaver._save_figures`, `InputFileLoaderCheckerSaver._save_data`, `InputFileLoaderCheckerSaver.check_input_attributes`, `string_of_object_attributes`, `PrefixNumpyArrayString.__init__`, `PrefixNumpyArrayString._pprint`, `PrefixNumpyArrayString.turn_on`, `PrefixNumpyArrayString.turn_off`, `next_output_stem`, `save_grid_data_to_file`, `hms_string`, `GenericInputFileArgParser.process`, `GenericInputFileArgParser.main`, `working_directory`, `SimpleTimer.__init__`, `SimpleTimer.start`, `SimpleTimer.finish`

not modelled: `object_members`, `print_all_nodes.generic_visit`, `fcode_one_large_expr`, `InputFileLoaderCheckerSaver.__init__`, `InputFileLoaderCheckerSaver._setup`, `make_array_into_dataframe`, `GenericInputFileArgParser.__init__`, `get_filepaths`, `modules_in_package`

## geotecha/inputoutput/timeout.py

modelled: `RunableProcessing.__init__`, `RunableProcessing.run_func`, `timeout`

not modelled: `RunableProcessing.done`, `RunableProcessing.result`, `_longcos`

## geotecha/mathematics/fourier.py

modelled: `imag_func`, `func_mirror_for_even_weight`, `func_mirror_for_odd_weight`, `cosine_transform`, `sine_transform`, `FourierTransform.__init__`, `FourierTransform.real_func`, `FourierTransform.imag_func`, `FourierTransform.mfe`, `FourierTransform.mfo`, `FourierTransform.mfre`, `FourierTransform.mfie`, `FourierTransform.mfio`, `FourierTransform.__call__`, `vcosine_transform`, `v2dcosine_transform`

not modelled: `real_func`, `FourierTransform.mfro`

## geotecha/mathematics/geometry.py

modelled: `xyz_from_pts`, `eqn_of_plane`, `integrate_f_over_polyhedra_code`, `polygon_area`, `polygon_centroid`, `polygon_2nd_moment_of_area`, `polyhedron_volume`, `make_hexahedron`

not modelled: `replace_x0_and_x1_with_vect`, `integrate_f_over_polygon_code`

## geotecha/mathematics/hankel.py

modelled: `HankelTransform.__init__`, `HankelTransform.zeros_of_jn`, `HankelTransform._integrand`, `HankelTransform.__call__`, `vhankel_transform`

not modelled: `HankelTransform.plot_integrand`, `scratch`

## geotecha/mathematics/laplace.py

modelled: `cot`, `csc`, `Talbot.__init__`, `Talbot.__call__`

## geotecha/mathematics/mp_laplace.py

modelled: `Talbot.__init__`, `Talbot.dps`, `Talbot.__call__`

## geotecha/mathematics/multi_transform.py

modelled: `ntransform`, `_NTransform.hankel`, `_NTransform.fourier`, `_NTransform.fourier_inverse`, `_NTransform.laplace_inverse`, `_NTransform.integral_transform`

not modelled: `_OptFunc.__init__`, `_OptFunc.__call__`, `_NTransform.__init__`

## geotecha/mathematics/quadrature.py

modelled: `gauss_kronrod_abscissae_and_weights`, `gauss_legendre_abscissae_and_weights`, `shanks_table`, `shanks`, `gk_quad`, `gl_quad`

## geotecha/mathematics/root_finding.py

modelled: `find_n_roots`, `fixed_point_no_accel`

## geotecha/mathematics/transformations.py

modelled: `depth_to_reduced_level`

## geotecha/piecewise/piecewise_linear_1d.py

modelled: `has_steps`, `is_initially_increasing`, `strictly_increasing`, `strictly_decreasing`, `non_increasing`, `non_decreasing`, `non_increasing_and_non_decreasing_parts`, `force_strictly_increasing`, `force_non_decreasing`, `start_index_of_ramps`, `start_index_of_constants`, `start_index_of_steps`, `segment_containing_xi`, `segments_less_than_xi`, `ramps_constants_steps`, `segment_containing_also_segments_less_than_xi`, `segment_containing_xi_also_containing_xj`, `segments_between_xi_and_xj`, `convert_x1_x2_y1_y2_to_x_y`, `convert_x_y_to_x1_x2_y1_y2`, `pinterp_x1_x2_y1_y2`, `interp_x1_x2_y1_y2`, `pinterp_x_y`, `interp_x_y`, `remove_superfluous_from_x_y`, `pinterp_xa_ya_multipy_x1b_x2b_y1b_y2b`, `interp_xa_ya_multipy_x1b_x2b_y1b_y2b`, `pavg_x_y_between_xi_xj`, `avg_x_y_between_xi_xj`, `pintegrate_x_y_between_xi_xj`, `integrate_x_y_between_xi_xj`, `pintegrate_x1_x2_y1_y2_between_xi_xj`, `integrate_x1_x2_y1_y2_between_xi_xj`, `pavg_x1_x2_y1_y2_between_xi_xj`, `avg_x1_x2_y1_y2_between_xi_xj`, `pxa_ya_multipy_avg_x1b_x2b_y1b_y2b_between`, `xa_ya_multipy_avg_x1b_x2b_y1b_y2b_between`, `pintegrate_x1a_x2a_y1a_y2a_multiply_x1b_x2b_y1b_y2b_between`, `integrate_x1a_x2a_y1a_y2a_multiply_x1b_x2b_y1b_y2b_between`, `pxa_ya_multiply_integrate_x1b_x2b_y1b_y2b_multiply_x1c_x2c_y1c_y2c_between_super`, `pxa_ya_multiply_integrate_x1b_x2b_y1b_y2b_multiply_x1c_x2c_y1c_y2c_between`, `xa_ya_multiply_integrate_x1b_x2b_y1b_y2b_multiply_x1c_x2c_y1c_y2c_between`, `pxa_ya_cos_multiply_integrate_x1b_x2b_y1b_y2b_multiply_x1c_x2c_y1c_y2c_between_super`, `pxa_ya_cos_multiply_integrate_x1b_x2b_y1b_y2b_multiply_x1c_x2c_y1c_y2c_between`, `xa_ya_cos_multiply_integrate_x1b_x2b_y1b_y2b_multiply_x1c_x2c_y1c_y2c_between`, `PolyLine.__init__`, `PolyLine.xy`, `PolyLine.x1_x2_y1_y2`, `PolyLine.x`, `PolyLine.y`, `PolyLine.x1`, `PolyLine.x2`, `PolyLine.y1`, `PolyLine.y2`, `PolyLine.__add__`, `PolyLine.__radd__`, `PolyLine.__sub__`, `PolyLine.__rsub__`, `PolyLine.__mul__`, `PolyLine.__rmul__`, `PolyLine.__truediv__`, `PolyLine.__rtruediv__`, `PolyLine.__eq__`, `PolyLine.__ne__`, `PolyLine._add_substract`, `polyline_make_x_common`, `subdivide_x_y_into_segments`, `subdivide_x_into_segments`, `layer_coords`, `subdivide_into_elements`

not modelled: `PolyLine.__str__`, `PolyLine.__repr__`

## geotecha/plotting/one_d.py

modelled: `rgb_shade`, `rgb_tint`, `copy_dict`, `MarkersDashesColors.__init__`, `MarkersDashesColors.__call__`, `MarkersDashesColors.merge_default_markers`, `MarkersDashesColors.construct_dashes`, `MarkersDashesColors.tint_colors`, `MarkersDashesColors.shade_colors`, `MarkersDashesColors.construct_colors`, `MarkersDashesColors.construct_markers`, `MarkersDashesColors.construct_styles`, `MarkersDashesColors.demo_styles`, `MarkersDashesColors.demo_options`, `iterable_method_call`, `xylabel_subplots`, `row_major_order_reverse_map`, `split_sequence_into_dict_and_nondicts`, `plot_data_in_grid`, `apply_dict_to_object`, `plot_generic_loads`, `plot_vs_time`, `plot_single_material_vs_depth`, `apply_markevery_to_sequence_of_lines`, `plot_vs_depth`, `save_figure`

not modelled: `pleasing_defaults`, `figure_from_source_code`

## geotecha/speccon/integrals.py

modelled: `m_from_sin_mx`, `pdim1sin_af_linear`, `pdim1sin_abf_linear`, `pdim1sin_D_aDf_linear`, `pdim1sin_ab_linear`, `pdim1sin_abc_linear`, `pdim1sin_D_aDb_linear`, `pEDload_linear`, `pEload_linear`, `pEDload_coslinear`, `pEload_coslinear`, `pEload_sinlinear`, `dim1sin`, `dim1sin_avg_between`, `pdim1sin_a_linear_between`, `dim1sin_a_linear_between`, `dim1sin_af_linear`, `dim1sin_abf_linear`, `dim1sin_D_aDf_linear`, `dim1sin_ab_linear`, `dim1sin_abc_linear`, `dim1sin_D_aDb_linear`, `Eload_linear`, `EDload_linear`, `Eload_coslinear`, `EDload_coslinear`, `Eload_sinlinear`, `pdim1sin_DD_abDDf_linear`, `dim1sin_DD_abDDf_linear`

## geotecha/speccon/integrals_generate_code.py

not modelled: `tw`, `Eload_linear_implementations`, `EDload_linear_implementations`, `Eload_coslinear_implementations`, `EDload_coslinear_implementations`, `Eload_sinlinear_implementations`, `SympyVarsFor1DSpectralDerivation.__init__`, `dim1sin_af_linear_implementations`, `dim1sin_abf_linear_implementations`, `dim1sin_D_aDf_linear_implementations`, `dim1sin_ab_linear_implementations`, `dim1sin_abc_linear_implementations`, `dim1sin_D_aDb_linear_implementations`, `dim1sin_a_linear_between`, `dim1_ab_linear_between`, `dim1sin_DD_abDDf_linear_implementations`

## geotecha/speccon/speccon1d.py

modelled: `Speccon1d.make_all`, `dim1sin_f`, `dim1sin_avgf`, `dim1sin_integrate_af`, `dim1sin_E_Igamv_the_BC_aDfDt_linear`, `dim1sin_E_Igamv_the_BC_abf_linear`, `dim1sin_E_Igamv_the_BC_abDfDt_linear`, `dim1sin_E_Igamv_the_BC_D_aDf_linear`, `dim1sin_E_Igamv_the_BC_deltaf_linear`, `dim1sin_E_Igamv_the_deltamag_linear`, `dim1sin_E_Igamv_the_aDmagDt_bilinear`, `dim1sin_E_Igamv_the_abmag_bilinear`, `dim1sin_foft_Ipsiw_the_BC_D_aDf_linear`, `dim1sin_E_Igamv_the_mvpl`

not modelled: `Speccon1d.make_time_independent_arrays`, `Speccon1d.make_time_dependent_arrays`, `Speccon1d.make_output`

## geotecha/speccon/speccon1d_unsat.py

modelled: `Speccon1dUnsat._setup`, `Speccon1dUnsat.make_time_independent_arrays`, `Speccon1dUnsat.make_time_dependent_arrays`, `Speccon1dUnsat.make_output`, `Speccon1dUnsat._make_m`, `Speccon1dUnsat._make_gam`, `Speccon1dUnsat._make_psi`, `Speccon1dUnsat._make_eigs_and_v`, `Speccon1dUnsat.print_eigs`, `Speccon1dUnsat.make_E_Igamv_the`, `Speccon1dUnsat._make_E_Igamv_the_surcharge`, `Speccon1dUnsat._normalised_bot_vs_time`, `Speccon1dUnsat._make_E_Igamv_the_BC`, `Speccon1dUnsat._make_por`, `Speccon1dUnsat._make_avp`, `Speccon1dUnsat._make_set`, `Speccon1dUnsat._plot_porw`, `Speccon1dUnsat._plot_pora`, `Speccon1dUnsat._plot_avpw`, `Speccon1dUnsat._plot_avpa`, `Speccon1dUnsat._plot_set`, `Speccon1dUnsat._plot_setw`, `Speccon1dUnsat._plot_seta`, `Speccon1dUnsat.produce_plots`, `Speccon1dUnsat._plot_materials`, `Speccon1dUnsat._plot_loads`

not modelled: `main`

## geotecha/speccon/speccon1d_vr.py

modelled: `Speccon1dVR._setup`, `Speccon1dVR.make_time_independent_arrays`, `Speccon1dVR.make_time_dependent_arrays`, `Speccon1dVR.make_output`, `Speccon1dVR._make_m`, `Speccon1dVR._make_gam`, `Speccon1dVR._make_psi`, `Speccon1dVR._make_eigs_and_v`, `Speccon1dVR.make_E_Igamv_the`, `Speccon1dVR._make_E_Igamv_the_surcharge`, `Speccon1dVR._make_E_Igamv_the_vacuum`, `Speccon1dVR._make_E_Igamv_the_fixed_ppress`, `Speccon1dVR._make_E_Igamv_the_pumping`, `Speccon1dVR._normalised_bot_vs_time`, `Speccon1dVR._make_E_Igamv_the_BC`, `Speccon1dVR._make_por`, `Speccon1dVR._make_avp`, `Speccon1dVR._make_set`, `Speccon1dVR._plot_por`, `Speccon1dVR._plot_avp`, `Speccon1dVR._plot_set`, `Speccon1dVR.produce_plots`, `Speccon1dVR._plot_materials`, `Speccon1dVR._plot_loads`

not modelled: `main`

## geotecha/speccon/speccon1d_vrc.py

modelled: `Speccon1dVRC._setup`, `Speccon1dVRC.make_time_independent_arrays`, `Speccon1dVRC.make_time_dependent_arrays`, `Speccon1dVRC.make_output`, `Speccon1dVRC._make_m`, `Speccon1dVRC._make_gam`, `Speccon1dVRC._make_psi`, `Speccon1dVRC._make_eigs_and_v`, `Speccon1dVRC.make_E_Igamv_the`, `Speccon1dVRC._make_E_Igamv_the_surcharge`, `Speccon1dVRC._normalised_bot_vs_time`, `Speccon1dVRC._make_E_Igamv_the_BC`, `Speccon1dVRC._make_por`, `Speccon1dVRC._make_avp`, `Speccon1dVRC._make_set`, `Speccon1dVRC._plot_pors`, `Speccon1dVRC._plot_porc`, `Speccon1dVRC._plot_por`, `Speccon1dVRC._plot_avp`, `Speccon1dVRC._plot_avps`, `Speccon1dVRC._plot_avpc`, `Speccon1dVRC._plot_set`, `Speccon1dVRC.produce_plots`, `Speccon1dVRC._plot_materials`, `Speccon1dVRC._plot_loads`, `main`

## geotecha/speccon/speccon1d_vrw.py

modelled: `Speccon1dVRW._setup`, `Speccon1dVRW.make_time_independent_arrays`, `Speccon1dVRW.make_time_dependent_arrays`, `Speccon1dVRW.make_output`, `Speccon1dVRW._make_m`, `Speccon1dVRW._make_gam`, `Speccon1dVRW._make_psi_w`, `Speccon1dVRW._make_psi`, `Speccon1dVRW._make_eigs_and_v`, `Speccon1dVRW.make_E_Igamv_the`, `Speccon1dVRW._make_E_Igamv_the_surcharge`, `Speccon1dVRW._make_E_Igamv_the_fixed_ppress`, `Speccon1dVRW._make_E_Igamv_the_pumping`, `Speccon1dVRW._normalised_bot_vs_time`, `Speccon1dVRW._make_E_Igamv_the_BC`, `Speccon1dVRW._make_por`, `Speccon1dVRW._make_porwell`, `Speccon1dVRW._make_avp`, `Speccon1dVRW._make_set`, `Speccon1dVRW._plot_porwell`, `Speccon1dVRW._plot_por`, `Speccon1dVRW._plot_avp`, `Speccon1dVRW._plot_set`, `Speccon1dVRW.produce_plots`, `Speccon1dVRW._plot_materials`, `Speccon1dVRW._plot_loads`

not modelled: `main`
