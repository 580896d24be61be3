{
 "claims": [
  {
   "property": "C01",
   "status": "proved",
   "theorems": [
    "Dw.Scalar.C01_callback_schedule_independent"
   ],
   "note": ""
  },
  {
   "property": "C02",
   "status": "proved",
   "theorems": [
    "Dw.Scalar.C02_forward_callback_events"
   ],
   "note": "Steps are counted in units of step_ratio * model_gradient_sampling_interval internal steps."
  },
  {
   "property": "C03",
   "status": "proved",
   "theorems": [
    "Dw.Scalar.C03_stop_and_resume"
   ],
   "note": ""
  },
  {
   "property": "C04",
   "status": "proved",
   "theorems": [
    "Dw.Scalar.C04_backward_is_adjoint",
    "Dw.Scalar.C10_superposition"
   ],
   "note": ""
  },
  {
   "property": "C05",
   "status": "proved",
   "theorems": [
    "Dw.Scalar.C05_velocity_gradient_exact"
   ],
   "note": ""
  },
  {
   "property": "C06",
   "status": "partial",
   "theorems": [
    "Dw.Scalar.C06_backward_callback_independent_partial",
    "Dw.Scalar.C06_gradient_with_several_threads",
    "Dw.Scalar.C06_fails_with_several_threads",
    "Dw.Gpu.C06_gpu_gradient_with_callback",
    "Dw.Gpu.C06_fails_on_gpu"
   ],
   "note": "The full statement is false with several threads (on a GPU: several shots) and a shared model (witnesses proved, and formulas for what is computed). Proved for one thread or a model per shot."
  },
  {
   "property": "C07",
   "status": "proved",
   "theorems": [
    "Dw.Scalar.C07_shots_independent_forward",
    "Dw.Scalar.C07_shots_independent_backward",
    "Dw.Scalar.C07_no_race"
   ],
   "note": ""
  },
  {
   "property": "C08",
   "status": "proved",
   "theorems": [
    "Dw.Scalar.C08_gradient_is_sum_over_shots"
   ],
   "note": ""
  },
  {
   "property": "C09",
   "status": "proved",
   "theorems": [
    "Dw.Scalar.C09_backends_agree",
    "Dw.Scalar.C09_fails_below_one_outer_step"
   ],
   "note": "At least one outer step; below that the compiled backend raises (second theorem)."
  },
  {
   "property": "C10",
   "status": "proved",
   "theorems": [
    "Dw.Scalar.C10_superposition",
    "Dw.Scalar.C10_zero"
   ],
   "note": ""
  },
  {
   "property": "C11",
   "status": "proved",
   "theorems": [
    "Dw.Scalar.C11_causality"
   ],
   "note": ""
  },
  {
   "property": "C12",
   "status": "proved",
   "theorems": [
    "Dw.Scalar.C12_finite_speed"
   ],
   "note": ""
  },
  {
   "property": "C13",
   "status": "proved",
   "theorems": [
    "Dw.Setup.C13_internal_time_step",
    "Dw.Setup.C13_rejects"
   ],
   "note": ""
  },
  {
   "property": "C14",
   "status": "proved",
   "theorems": [
    "Dw.Scalar.C14_energy_conserved",
    "Dw.Scalar.C14_bounded_by_initial_energy",
    "Dw.Scalar.C14_never_blows_up"
   ],
   "note": ""
  },
  {
   "property": "C15",
   "status": "proved",
   "theorems": [
    "Dw.Setup.C15_own_cell",
    "Dw.Setup.C15_different_cells",
    "Dw.Setup.C15_locations_in_extents",
    "Dw.Setup.C15_extents_of_wavefields",
    "Dw.Setup.C15_model_at_location",
    "Dw.Setup.C15_setup_well_formed"
   ],
   "note": ""
  },
  {
   "property": "C16",
   "status": "proved",
   "theorems": [
    "Dw.Setup.C16_rejected_iff_duplicates"
   ],
   "note": ""
  },
  {
   "property": "C17",
   "status": "proved",
   "theorems": [
    "Dw.Scalar.C17_ignored_locations",
    "Dw.Setup.C17_ignored_index",
    "Dw.Setup.C17_partially_ignored"
   ],
   "note": "Last theorem: a location ignored in only some coordinates is neither rejected nor ignored."
  },
  {
   "property": "C18",
   "status": "proved",
   "theorems": [
    "Dw.Setup.C18_smallest_extents",
    "Dw.Setup.C18_fails_if_all_ignored"
   ],
   "note": "If every location is ignored there is no smallest box; the code then returns an empty extent."
  },
  {
   "property": "C19",
   "status": "proved",
   "theorems": [
    "Dw.Setup.C19_replicate",
    "Dw.Setup.C19_constant"
   ],
   "note": ""
  },
  {
   "property": "C20",
   "status": "proved",
   "theorems": [
    "Dw.Setup.C20_views"
   ],
   "note": ""
  },
  {
   "property": "C21",
   "status": "proved",
   "theorems": [
    "Dw.Setup.C21_profiles",
    "Dw.Setup.C21_no_amplification",
    "Dw.Setup.C21_time_step_sign",
    "Dw.Setup.C21_scalar_profiles",
    "Dw.Setup.C21_acoustic_profiles",
    "Dw.Setup.C21_elastic_profiles",
    "Dw.Setup.C21_fails_for_zero_frequency"
   ],
   "note": "For positive pml_freq; for pml_freq = 0, which is accepted, profiles are NaN (last theorem)."
  },
  {
   "property": "C22",
   "status": "proved",
   "theorems": [
    "Dw.Scalar.C22_each_interior_cell_once"
   ],
   "note": ""
  },
  {
   "property": "C23",
   "status": "proved",
   "theorems": [
    "Dw.Scalar.C23_forward_in_bounds",
    "Dw.Scalar.C23_backward_in_bounds",
    "Dw.Scalar.C23_locations_in_bounds",
    "Dw.Storage.C27_compressed_slots",
    "Dw.Storage.C27_uncompressed_slots"
   ],
   "note": "Scalar propagator, CPU backend."
  },
  {
   "property": "C34",
   "status": "partial",
   "theorems": [
    "Dw.Scalar.C34_all_samples_propagated_partial",
    "Dw.Scalar.C34_fails_if_interval_does_not_divide",
    "Dw.Scalar.C34_fewer_steps_than_interval"
   ],
   "note": "The full statement is false: if the sampling interval does not divide the number of steps the trailing samples are not propagated (witness proved). Proved when it divides."
  },
  {
   "property": "C35",
   "status": "proved",
   "theorems": [
    "Dw.Setup.C35_grid_spacing",
    "Dw.Setup.C35_pml_width",
    "Dw.Setup.C35_accuracy",
    "Dw.Setup.C35_pml_freq",
    "Dw.Setup.C35_max_vel",
    "Dw.Setup.C35_nt",
    "Dw.Setup.C35_interval",
    "Dw.Setup.C35_fraction",
    "Dw.Setup.C35_callback_frequency",
    "Dw.Setup.C35_survey_pad",
    "Dw.Setup.C35_amplitudes_match"
   ],
   "note": ""
  },
  {
   "property": "C36",
   "status": "proved",
   "theorems": [
    "Dw.Scalar.C36_padding_round_trip"
   ],
   "note": ""
  },
  {
   "property": "C41",
   "status": "proved",
   "theorems": [
    "Dw.Scalar.C41_reciprocity"
   ],
   "note": ""
  },
  {
   "property": "C42",
   "status": "proved",
   "theorems": [
    "Dw.Scalar.C42_backward_callback_events"
   ],
   "note": "The callback sees wavefield_m1 with the opposite sign of the returned gradient."
  },
  {
   "property": "C45",
   "status": "proved",
   "theorems": [
    "Dw.Setup.C45_ndim_iff",
    "Dw.Setup.C45_unchecked_determining_field"
   ],
   "note": "If a wavefield or location is given; otherwise one check is skipped (second theorem)."
  },
  {
   "property": "C37",
   "status": "proved",
   "theorems": [
    "Dw.Setup.C37_round_trip",
    "Dw.Setup.C37_round_trip_lame",
    "Dw.Setup.C37_round_trip_eps"
   ],
   "note": ""
  },
  {
   "property": "C46",
   "status": "proved",
   "theorems": [
    "Dw.Setup.C46_ricker"
   ],
   "note": ""
  },
  {
   "property": "C24",
   "status": "proved",
   "theorems": [
    "Dw.Storage.C24_stored_is_loaded"
   ],
   "note": "CPU backend. Mode cpu is turned into device for CPU tensors; mode none stores nothing."
  },
  {
   "property": "C25",
   "status": "proved",
   "theorems": [
    "Dw.Scalar.C25_gradient_from_storage",
    "Dw.Scalar.C25_storage_mode_independent"
   ],
   "note": "CPU backend, scalar propagator."
  },
  {
   "property": "C26",
   "status": "proved",
   "theorems": [
    "Dw.Storage.C26_compress_error",
    "Dw.Storage.C26_loaded_error"
   ],
   "note": "Exact arithmetic; see DESIGN.md for subnormal block maxima."
  },
  {
   "property": "C28",
   "status": "proved",
   "theorems": [
    "Dw.C28_first_derivative",
    "Dw.C28_second_derivative",
    "Dw.C28_staggered"
   ],
   "note": "The slices of the Python diffz1 functions of order 6 and 8 assume a batch dimension."
  },
  {
   "property": "C27",
   "status": "proved",
   "theorems": [
    "Dw.Storage.C27_compressed_slots",
    "Dw.Storage.C27_uncompressed_slots"
   ],
   "note": ""
  },
  {
   "property": "C29",
   "status": "proved",
   "theorems": [
    "Dw.Born.C29_born_is_derivative",
    "Dw.Born.C29_scattered_linear",
    "Dw.Born.C29_amplitudes_linear",
    "Dw.Born.C29_background_is_scalar",
    "Dw.Born.C29_padded_direction",
    "Dw.Born.C29_padded_direction_edge"
   ],
   "note": "The last theorem shows that the condition on the edge is needed."
  },
  {
   "property": "C30",
   "status": "proved",
   "theorems": [
    "Dw.Born.C30_scatter_gradient_is_transpose"
   ],
   "note": "Both backward and backward_sc."
  },
  {
   "property": "C47",
   "status": "proved",
   "theorems": [
    "Dw.Born.C47_born_backward_is_adjoint"
   ],
   "note": ""
  },
  {
   "property": "C48",
   "status": "proved",
   "theorems": [
    "Dw.Born.C48_born_velocity_gradient"
   ],
   "note": ""
  },
  {
   "property": "C49",
   "status": "proved",
   "theorems": [
    "Dw.Born.C49_born_callback_schedule",
    "Dw.Born.C49_born_forward_events"
   ],
   "note": "One thread, or a batched model; with several threads and an unbatched model see C06."
  },
  {
   "property": "C32",
   "status": "proved",
   "theorems": [
    "Dw.Acoustic.C32_acoustic_gradients_exact"
   ],
   "note": "Derivative with respect to all inputs; models not smaller than the finite-difference pad."
  },
  {
   "property": "C31",
   "status": "proved",
   "theorems": [
    "Dw.Acoustic.C31_acoustic_backward_is_adjoint",
    "Dw.Acoustic.C31_fails_for_tiny_model"
   ],
   "note": "For models not smaller than the finite-difference pad (Cfg.Big); the second theorem shows that the condition is needed."
  },
  {
   "property": "C33",
   "status": "proved",
   "theorems": [
    "Dw.Acoustic.C33_acoustic_backends_agree",
    "Dw.Acoustic.C33_fails_below_one_outer_step"
   ],
   "note": ""
  },
  {
   "property": "C50",
   "status": "proved",
   "theorems": [
    "Dw.Acoustic.C50_acoustic_callback_schedule",
    "Dw.Acoustic.C50_acoustic_forward_events",
    "Dw.Acoustic.C50_acoustic_backward_events"
   ],
   "note": "One thread, or batched models; with several threads and unbatched models see C06."
  },
  {
   "property": "C38",
   "status": "proved",
   "theorems": [
    "Dw.Hicks.C38_source_receiver_transpose",
    "Dw.Hicks.C38_spread_adjoint",
    "Dw.Hicks.C38_locations_unique",
    "Dw.Hicks.C38_rows_equal",
    "Dw.Hicks.C38_source_zero_at_ignored",
    "Dw.Hicks.C38_on_grid"
   ],
   "note": ""
  },
  {
   "property": "C39",
   "status": "partial",
   "theorems": [
    "Dw.Hicks.C39_measures_as_alone_partial",
    "Dw.Hicks.C39_fails_at_free_surface",
    "Dw.Hicks.C39_fails_for_close_fractions"
   ],
   "note": "The property is false: the cached weights are the tensor that is folded in place at a free surface, and fractional parts in the same eps bucket share weights. The partial theorem assumes neither happens."
  },
  {
   "property": "C51",
   "status": "proved",
   "theorems": [
    "Dw.Hicks.C51_measures_odd_continuation"
   ],
   "note": "Stated for points whose cache entries are not corrupted (see C39)."
  },
  {
   "property": "C52",
   "status": "proved",
   "theorems": [
    "Dw.Hicks.C52_kernel_within_window",
    "Dw.Hicks.C52_fails_for_negative_coordinate"
   ],
   "note": "The second theorem shows that the restriction to coordinates that are not negative is needed."
  },
  {
   "property": "C43",
   "status": "partial",
   "theorems": [
    "Dw.Interface.C43_cpu_calls_partial",
    "Dw.Interface.C43_cuda_calls",
    "Dw.Interface.C43_fails_for_backward_sc"
   ],
   "note": "False for one function: the CPU backward_sc of the Born propagator lacks the last parameter that Python declares and passes. All other functions agree in number, kind and meaning of the arguments."
  },
  {
   "property": "C53",
   "status": "partial",
   "theorems": [
    "Dw.Interface.C53_forward_fields",
    "Dw.Interface.C53_backward_fields_partial",
    "Dw.Interface.C53_fails_for_last_field",
    "Dw.Interface.C53_models_partial",
    "Dw.Interface.C53_fails_for_3d_models",
    "Dw.Interface.C53_python_fields_partial",
    "Dw.Interface.C53_python_fields_1d",
    "Dw.Interface.C53_fails_for_python_backend",
    "Dw.Interface.C53_python_backend_hides_sigmaxy"
   ],
   "note": "The property is false: in backward callbacks the last field is missing, in 3D the models are shown under the names of the 2D list, and with the Python backend the shear fields are empty or shown under other names."
  },
  {
   "property": "C54",
   "status": "proved",
   "theorems": [
    "Dw.Interface.C54_documented_order",
    "Dw.Interface.C54_buffers_exchanged",
    "Dw.Interface.C54_python_order"
   ],
   "note": ""
  },
  {
   "property": "C44",
   "status": "proved",
   "theorems": [
    "Dw.Elastic.C44_elastic_backward_is_adjoint"
   ],
   "note": "For models not smaller than the finite-difference pad (Cfg.Big), as C31."
  },
  {
   "property": "C55",
   "status": "proved",
   "theorems": [
    "Dw.Elastic.C55_elastic_gradients_exact"
   ],
   "note": "With respect to the parameters the kernel receives (after prepare_parameters)."
  },
  {
   "property": "C56",
   "status": "proved",
   "theorems": [
    "Dw.Elastic.C56_elastic_callback_schedule",
    "Dw.Elastic.C56_elastic_forward_events",
    "Dw.Elastic.C56_elastic_backward_events"
   ],
   "note": "One thread, or batched models; with several threads and unbatched models see C06."
  },
  {
   "property": "C57",
   "status": "proved",
   "theorems": [
    "Dw.Elastic.C57_elastic_backends_agree",
    "Dw.Elastic.C57_fails_below_one_outer_step",
    "Dw.Elastic.C57_first_event_differs"
   ],
   "note": "For at least one outer step; below that only the compiled backend raises."
  },
  {
   "property": "C58",
   "status": "proved",
   "theorems": [
    "Dw.Interface.C58_elastic_zeroed",
    "Dw.Interface.C58_acoustic_zeroed"
   ],
   "note": "Index tables; the positions cleared within a field are in C36 and in the models of the propagators."
  },
  {
   "property": "C40",
   "status": "partial",
   "theorems": [
    "Dw.Resample.C40_lengths",
    "Dw.Resample.C40_rejected",
    "Dw.Resample.C40_samples",
    "Dw.Resample.C40_round_trip_partial",
    "Dw.Resample.C40_fails_with_padding"
   ],
   "note": "Lengths for all options, every r-th sample for all padding fractions, the round trip without padding; with padding the round trip is false (witness). Default frequency taper."
  },
  {
   "property": "C59",
   "status": "proved",
   "theorems": [
    "Dw.Resample.C59_transpose",
    "Dw.Resample.C59_fails_for_short_taper"
   ],
   "note": "A frequency taper, if requested, has to reach at least one bin; otherwise false (second theorem)."
  },
  {
   "property": "C60",
   "status": "proved",
   "theorems": [
    "Dw.Resample.C60_upsample",
    "Dw.Resample.C60_downsample"
   ],
   "note": "Without tapers and padding."
  },
  {
   "property": "C61",
   "status": "proved",
   "theorems": [
    "Dw.Scalar.C61_scalar_equation",
    "Dw.Acoustic.C61_acoustic_equations",
    "Dw.Elastic.C61_elastic_equations"
   ],
   "note": "Step ratio and sampling interval 1, so that the call with nt steps can be compared with the call with nt + 1."
  },
  {
   "property": "C62",
   "status": "partial",
   "theorems": [
    "Dw.Gpu.C62_events_in_every_step",
    "Dw.Gpu.C62_single_stream",
    "Dw.Gpu.C62_events_in_store_steps_partial",
    "Dw.Gpu.C62_fails_for_events_in_store_steps"
   ],
   "note": "Holds for acoustic.cu and elastic.cu, and without a second stream. For scalar.cu and scalar_born.cu with a step ratio larger than 1 and an even number of snapshots at the end of a call it is false (last theorem): forward does not wait for its last save."
  },
  {
   "property": "C63",
   "status": "proved",
   "theorems": [
    "Dw.Gpu.C63_forward",
    "Dw.Gpu.C63_backward",
    "Dw.Gpu.C63_gradient",
    "Dw.Gpu.C63_gradient_per_shot",
    "Dw.Gpu.C63_duplicate_sources_race"
   ],
   "note": "For shots whose sources (backward: receivers) are in different cells, as the validation guarantees (C16); the last theorem shows that this is needed. A shared model with a backward callback is C06."
  },
  {
   "property": "C64",
   "status": "proved",
   "theorems": [
    "Dw.Born.C64_double_backward",
    "Dw.Born.C64_fixed_velocity",
    "Dw.Born.C64_fails_if_interval_does_not_divide"
   ],
   "note": "For snapshots at every step, one shot, one thread; without velocity gradient for every step ratio that divides the number of steps, which is needed (last theorem)."
  },
  {
   "property": "C65",
   "status": "proved",
   "theorems": [
    "Dw.Acoustic.C65_acoustic_superposition",
    "Dw.Elastic.C65_elastic_superposition"
   ],
   "note": ""
  },
  {
   "property": "C66",
   "status": "proved",
   "theorems": [
    "Dw.Acoustic.C66_acoustic_stop_and_resume",
    "Dw.Elastic.C66_elastic_stop_and_resume"
   ],
   "note": ""
  },
  {
   "property": "C67",
   "status": "proved",
   "theorems": [
    "Dw.Acoustic.C67_acoustic_causality",
    "Dw.Acoustic.C67_acoustic_finite_speed",
    "Dw.Elastic.C67_elastic_causality",
    "Dw.Elastic.C67_elastic_finite_speed"
   ],
   "note": ""
  },
  {
   "property": "C68",
   "status": "proved",
   "theorems": [
    "Dw.Acoustic.C68_energy_conserved",
    "Dw.Acoustic.C68_stable",
    "Dw.Acoustic.C68_stable_accuracy_two",
    "Dw.Acoustic.C68_never_blows_up",
    "Dw.Acoustic.C68_unstable_for_large_contrast"
   ],
   "note": ""
  },
  {
   "property": "C69",
   "status": "proved",
   "theorems": [
    "Dw.Elastic.C69_energy_conserved",
    "Dw.Elastic.C69_stable",
    "Dw.Elastic.C69_stable_accuracy_two",
    "Dw.Elastic.C69_never_blows_up",
    "Dw.Elastic.C69_unstable_for_large_contrast"
   ],
   "note": "Stresses in the initial wavefields must be zero in a vacuum and isotropic in a fluid, velocities zero where the buoyancy is; pressure sources must not be in a vacuum."
  },
  {
   "property": "C70",
   "status": "proved",
   "theorems": [
    "Dw.C70_no_race",
    "Dw.Acoustic.C70_acoustic_forward",
    "Dw.Acoustic.C70_acoustic_backward",
    "Dw.Elastic.C70_elastic_forward",
    "Dw.Elastic.C70_elastic_backward",
    "Dw.Born.C70_born_forward",
    "Dw.Born.C70_born_backward",
    "Dw.Born.C70_born_backward_sc"
   ],
   "note": "One iteration of a time loop is an atomic step, justified by C70_no_race."
  },
  {
   "property": "C71",
   "status": "proved",
   "theorems": [
    "Dw.Acoustic.C71_acoustic_forward",
    "Dw.Acoustic.C71_acoustic_backward",
    "Dw.Elastic.C71_elastic_forward",
    "Dw.Elastic.C71_elastic_backward",
    "Dw.Born.C71_born_forward",
    "Dw.Born.C71_born_backward",
    "Dw.Born.C71_born_backward_sc"
   ],
   "note": "For shots whose sources (backward: receivers) of a kind are in different cells (C16); streams and storage are C62."
  },
  {
   "property": "C72",
   "status": "proved",
   "theorems": [
    "Dw.Born.C72_born_backends_agree",
    "Dw.Born.C72_fails_below_one_outer_step"
   ],
   "note": "The memory variables shown to a callback at step 0 may differ, and with fewer internal steps than one outer step and no callback the compiled backend raises (second theorem), as in C09."
  },
  {
   "property": "C73",
   "status": "proved",
   "theorems": [
    "Dw.Born.C73_born_superposition",
    "Dw.Born.C73_born_stop_and_resume",
    "Dw.Born.C73_born_causality",
    "Dw.Born.C73_born_finite_speed"
   ],
   "note": ""
  },
  {
   "property": "C74",
   "status": "proved",
   "theorems": [
    "Dw.Storage.C74_gpu_eq_cpu",
    "Dw.Storage.C74_gpu_error",
    "Dw.Storage.C74_gpu_in_bounds"
   ],
   "note": "What a thread does between two barriers is one step, justified by Dw.Storage.reduce_no_race."
  },
  {
   "property": "C75",
   "status": "proved",
   "theorems": [
    "Dw.Acoustic.C75_acoustic_reciprocity",
    "Dw.Acoustic.C75_acoustic_exchange_pressure",
    "Dw.Acoustic.C75_acoustic_exchange_velocity",
    "Dw.Acoustic.C75_acoustic_exchange_mixed"
   ],
   "note": "Internal time steps; resampling of amplitudes and traces is C59 and C60."
  },
  {
   "property": "C76",
   "status": "proved",
   "theorems": [
    "Dw.Elastic.C76_elastic_reciprocity",
    "Dw.Elastic.C76_elastic_exchange_velocity",
    "Dw.Elastic.C76_elastic_exchange_pressure",
    "Dw.Elastic.C76_elastic_exchange_mixed",
    "Dw.Elastic.C76_pressure_not_reciprocal"
   ],
   "note": "The bulk modulus must not be zero at pressure sources and receivers; internal time steps as in C75."
  },
  {
   "property": "C77",
   "status": "proved",
   "theorems": [
    "Dw.Born.C77_born_reciprocity"
   ],
   "note": "Internal time steps as in C75."
  },
  {
   "property": "C78",
   "status": "proved",
   "theorems": [
    "Dw.Setup.C78_regular_profiles",
    "Dw.Setup.C78_staggered_profiles",
    "Dw.Scalar.C78_scalar_mirror",
    "Dw.Born.C78_born_mirror",
    "Dw.Acoustic.C78_acoustic_mirror",
    "Dw.Elastic.C78_elastic_mirror"
   ],
   "note": "Real arithmetic; internal time steps as in C75."
  },
  {
   "property": "C79",
   "status": "proved",
   "theorems": [
    "Dw.Scalar.C79_shots_of_a_call"
   ],
   "note": "From the user's arguments to the returned tensors. If all locations of a tensor are ignored for the selected shots while initial wavefields are given, the code raises; this is excluded by a hypothesis."
  },
  {
   "property": "C80",
   "status": "proved",
   "theorems": [
    "Dw.Scalar.C80_sign_of_dt"
   ],
   "note": "From the user's arguments to the returned tensors."
  },
  {
   "property": "C81",
   "status": "proved",
   "theorems": [
    "Dw.Scalar.C81_cropped_by_hand",
    "Dw.Scalar.C81_model_outside"
   ],
   "note": "From the user's arguments to the returned tensors; same exclusion as C79."
  },
  {
   "property": "C82",
   "status": "proved",
   "theorems": [
    "Dw.Scalar.C82_superposition"
   ],
   "note": "From the user's arguments to the returned tensors."
  },
  {
   "property": "C83",
   "status": "proved",
   "theorems": [
    "Dw.Scalar.C83_reciprocity"
   ],
   "note": "From the user's arguments to the returned tensors."
  },
  {
   "property": "C84",
   "status": "proved",
   "theorems": [
    "Dw.Scalar.C84_stop_and_resume"
   ],
   "note": "From the user's arguments to the returned tensors. Without survey_pad the code raises in the second call if all locations of a tensor are ignored; this is excluded by a hypothesis, and so is an origin that the first call did not use."
  },
  {
   "property": "C85",
   "status": "proved",
   "theorems": [
    "Dw.Born.C85_shots_of_a_call",
    "Dw.Acoustic.C85_shots_of_a_call",
    "Dw.Elastic.C85_shots_of_a_call"
   ],
   "note": "From the user's arguments to the returned tensors."
  },
  {
   "property": "C86",
   "status": "proved",
   "theorems": [
    "Dw.Born.C86_model_outside",
    "Dw.Acoustic.C86_model_outside",
    "Dw.Elastic.C86_model_outside",
    "Dw.Born.C86_cropped_by_hand"
   ],
   "note": "From the user's arguments to the returned tensors."
  },
  {
   "property": "C87",
   "status": "partial",
   "theorems": [
    "Dw.Acoustic.C87_cropped_by_hand_partial",
    "Dw.Elastic.C87_cropped_by_hand_partial",
    "Dw.Acoustic.C87_not_in_the_last_cell",
    "Dw.Elastic.C87_not_in_the_last_cell"
   ],
   "note": "The full statement is false: velocity sources and receivers are checked against the last cell of the whole model, not of the extents; a call that passes is rejected after cropping by hand (C87_not_in_the_last_cell). Proved for velocity locations before the last cell of the extents."
  },
  {
   "property": "C88",
   "status": "proved",
   "theorems": [
    "Dw.Born.C88_sign_of_dt",
    "Dw.Acoustic.C88_sign_of_dt",
    "Dw.Elastic.C88_sign_of_dt"
   ],
   "note": "From the user's arguments to the returned tensors."
  },
  {
   "property": "C89",
   "status": "proved",
   "theorems": [
    "Dw.Born.C89_after_the_setup",
    "Dw.Acoustic.C89_after_the_setup",
    "Dw.Elastic.C89_after_the_setup"
   ],
   "note": "Results with an undefined number (division by zero in the PML profiles) are modelled as none."
  },
  {
   "property": "C90",
   "status": "proved",
   "theorems": [
    "Dw.Scalar.C90_scalar_scheme",
    "Dw.Scalar.C90_traces"
   ],
   "note": "From the user's arguments to the returned tensors; the specification is Spec/Grid.lean."
  },
  {
   "property": "C91",
   "status": "proved",
   "theorems": [
    "Dw.Born.C91_born_scheme"
   ],
   "note": "From the user's arguments to the returned tensors; the specification is Spec/Born.lean."
  },
  {
   "property": "C92",
   "status": "proved",
   "theorems": [
    "Dw.Acoustic.C92_acoustic_scheme",
    "Dw.Acoustic.C92_traces"
   ],
   "note": "From the user's arguments to the returned tensors; the specification is Spec/Acoustic.lean."
  },
  {
   "property": "C93",
   "status": "proved",
   "theorems": [
    "Dw.Elastic.C93_elastic_scheme",
    "Dw.Elastic.C93_traces"
   ],
   "note": "From the user's arguments to the returned tensors; the specification is Spec/Elastic.lean."
  },
  {
   "property": "C94",
   "status": "proved",
   "theorems": [
    "Dw.Scalar.C94_gradients_exact"
   ],
   "note": "max_vel has to be given: otherwise it is taken from the model outside automatic differentiation, and the PML changes with it."
  },
  {
   "property": "C95",
   "status": "proved",
   "theorems": [
    "Dw.Scalar.C95_source_gradients"
   ],
   "note": "Any time step ratio and gradient sampling interval."
  },
  {
   "property": "C96",
   "status": "proved",
   "theorems": [
    "Dw.Born.C96_born_gradients_exact"
   ],
   "note": "max_vel has to be given, as for C94."
  },
  {
   "property": "C97",
   "status": "proved",
   "theorems": [
    "Dw.Born.C97_born_source_gradients"
   ],
   "note": "Any time step ratio and gradient sampling interval."
  },
  {
   "property": "C98",
   "status": "proved",
   "theorems": [
    "Dw.Acoustic.C98_acoustic_gradients_exact"
   ],
   "note": "max_vel has to be given, as for C94; where a mean density is exactly the threshold the buoyancy is not differentiable."
  },
  {
   "property": "C99",
   "status": "proved",
   "theorems": [
    "Dw.Acoustic.C99_acoustic_source_gradients"
   ],
   "note": "Any time step ratio and gradient sampling interval."
  },
  {
   "property": "C100",
   "status": "proved",
   "theorems": [
    "Dw.Elastic.C100_elastic_gradients_exact"
   ],
   "note": "max_vel has to be given, as for C94; the thresholds of prepare_parameters must not be hit exactly and harmonic means must be finite."
  },
  {
   "property": "C101",
   "status": "proved",
   "theorems": [
    "Dw.Elastic.C101_elastic_source_gradients"
   ],
   "note": "Any time step ratio and gradient sampling interval."
  },
  {
   "property": "C102",
   "status": "proved",
   "theorems": [
    "Dw.Born.C102_born_is_derivative",
    "Dw.Born.C102_background"
   ],
   "note": "C29_padded_direction_edge shows why the edge condition is needed: the velocity is padded by replication, the scattering potential by zero."
  },
  {
   "property": "C103",
   "status": "proved",
   "theorems": [
    "Dw.Born.C103_born_superposition",
    "Dw.Acoustic.C103_acoustic_superposition",
    "Dw.Elastic.C103_elastic_superposition"
   ],
   "note": "C82 is the same for scalar."
  },
  {
   "property": "C104",
   "status": "proved",
   "theorems": [
    "Dw.Born.C104_born_stop_and_resume",
    "Dw.Acoustic.C104_acoustic_stop_and_resume",
    "Dw.Elastic.C104_elastic_stop_and_resume"
   ],
   "note": "C84 is the same for scalar."
  },
  {
   "property": "C105",
   "status": "proved",
   "theorems": [
    "Dw.Elastic.C105_fluid",
    "Dw.Elastic.fluid_maxVel"
   ],
   "note": "Both calls are assumed to pass the checks with the same extents.  fluid_maxVel: without max_vel the maximum velocities are equal too."
  },
  {
   "property": "C106",
   "status": "proved",
   "theorems": [
    "Dw.Scalar.C106_scalar_never_blows_up",
    "Dw.Acoustic.C106_acoustic_never_blows_up",
    "Dw.Elastic.C106_elastic_never_blows_up"
   ],
   "note": "User level form of C14, C68 and C69: the hypotheses are about the arguments of the call and the plan that the checks return."
  },
  {
   "property": "C107",
   "status": "proved",
   "theorems": [
    "Dw.Scalar.C107_scalar_devices",
    "Dw.Scalar.C107_scalar_python",
    "Dw.Born.C107_born_devices",
    "Dw.Born.C107_born_python",
    "Dw.Acoustic.C107_acoustic_devices",
    "Dw.Acoustic.C107_acoustic_python",
    "Dw.Elastic.C107_elastic_devices",
    "Dw.Elastic.C107_elastic_python"
   ],
   "note": "User level form of C07, C09, C33, C57, C63, C70, C71 and C72: that sources of a shot are in different cells, and that a model is shared only if it has one block, follows from the checks of the call. Memory variables that the Python backend shows a callback at step 0 are excluded for scalar, scalar_born and elastic (they are not yet zero inside)."
  },
  {
   "property": "C108",
   "status": "proved",
   "theorems": [
    "Dw.Interface.C108_scalar",
    "Dw.Interface.C108_born",
    "Dw.Interface.C108_acoustic",
    "Dw.Interface.C108_elastic"
   ],
   "note": "The tables of parameters, defaults, type checks, assignments and call arguments are written out from the sources; the theorem holds for all values and all ways to give arguments."
  },
  {
   "property": "C109",
   "status": "partial",
   "theorems": [
    "Dw.Interface.C109_selects",
    "Dw.Interface.C109_refuses",
    "Dw.Interface.C109_argtypes_partial",
    "Dw.Interface.C109_fails_for_backward_sc"
   ],
   "note": "Selection is proved in full. The declared types fit all functions but backward_sc of scalar_born on the CPU (finding of C43), for which the claim is proved false."
  },
  {
   "property": "C110",
   "status": "proved",
   "theorems": [
    "Dw.Scalar.C110_scalar",
    "Dw.Born.C110_born",
    "Dw.Acoustic.C110_acoustic",
    "Dw.Elastic.C110_elastic"
   ],
   "note": "The hypothesis about backward callbacks is the defect of C06, of which C06 proves that it is needed."
  },
  {
   "property": "C111",
   "status": "proved",
   "theorems": [
    "Dw.Acoustic.C111_acoustic_reciprocity",
    "Dw.Acoustic.C111_acoustic_reciprocity_mixed",
    "Dw.Elastic.C111_elastic_reciprocity",
    "Dw.Elastic.C111_elastic_reciprocity_pressure",
    "Dw.Elastic.C111_elastic_reciprocity_mixed",
    "Dw.Born.C111_born_reciprocity"
   ],
   "note": "Acceptance of the exchanged call is a conclusion, not a hypothesis; the traces include the resampling, except between pressure and velocity, where there must be no internal substeps."
  },
  {
   "property": "C112",
   "status": "partial",
   "theorems": [
    "Dw.Interface.C112_batched_refused",
    "Dw.Interface.C112_elastic_batched_partial",
    "Dw.Interface.C112_fails_for_sigmaxx"
   ],
   "note": "Holds for scalar, scalar_born and acoustic. False for elastic (refuted by C112_fails_for_sigmaxx); the partial theorem covers all arguments of elastic but sigmaxx_0."
  },
  {
   "property": "C113",
   "status": "partial",
   "theorems": [
    "Dw.Interface.C113_dimensions",
    "Dw.Interface.C113_elastic_dimensions_partial",
    "Dw.Interface.C113_fails_for_sigmaxx"
   ],
   "note": "Holds for scalar, scalar_born and acoustic. False for elastic (refuted by C113_fails_for_sigmaxx); the partial theorem covers all arguments of elastic but sigmaxx_0."
  },
  {
   "property": "C114",
   "status": "partial",
   "theorems": [
    "Dw.Interface.C114_no_tensor_ignored",
    "Dw.Interface.C114_staggered_partial",
    "Dw.Interface.C114_amplitudes_ignored"
   ],
   "note": "Holds for scalar and scalar_born. False for acoustic and elastic (refuted by C114_amplitudes_ignored); the partial theorem covers all tensors but the source amplitudes of an axis that the call does not have."
  },
  {
   "property": "C115",
   "status": "proved",
   "theorems": [
    "Dw.Setup.C115_warnings",
    "Dw.Setup.C115_silent",
    "Dw.Scalar.C115_scalar_silent",
    "Dw.Born.C115_born_silent",
    "Dw.Acoustic.C115_acoustic_silent",
    "Dw.Elastic.C115_elastic_silent"
   ],
   "note": "The warnings of the setup; deprecation warnings and those of the Hicks interpolation are not modelled."
  },
  {
   "property": "C116",
   "status": "proved",
   "theorems": [
    "Dw.Interface.C116_forward",
    "Dw.Interface.C116_scalar",
    "Dw.Interface.C116_scalar_double",
    "Dw.Interface.C116_born",
    "Dw.Interface.C116_acoustic",
    "Dw.Interface.C116_elastic"
   ],
   "note": "The numbers of models, amplitudes, locations, wavefields and profiles are hypotheses (those of the functions that make the call). The rule by which PyTorch assigns returned gradients to inputs is part of the model (collect)."
  },
  {
   "property": "C117",
   "status": "proved",
   "theorems": [
    "Dw.Interface.C117_scalar",
    "Dw.Interface.C117_born",
    "Dw.Interface.C117_born_models",
    "Dw.Interface.C117_acoustic"
   ],
   "note": "The callbacks of elastic are C53."
  },
  {
   "property": "C118",
   "status": "partial",
   "theorems": [
    "Dw.Interface.C118_variant",
    "Dw.Interface.C118_variants",
    "Dw.Interface.C118_storage_mode",
    "Dw.Interface.C118_refusals_partial",
    "Dw.Interface.C118_acoustic_ignores_compression"
   ],
   "note": "The refusal of options holds for scalar, scalar_born and elastic and is false for acoustic (refuted by C118_acoustic_ignores_compression); the rest is proved."
  },
  {
   "property": "C119",
   "status": "proved",
   "theorems": [
    "Dw.Scalar.C119_order",
    "Dw.Born.C119_born_order",
    "Dw.Acoustic.C119_acoustic_order",
    "Dw.Elastic.C119_elastic_order"
   ],
   "note": ""
  },
  {
   "property": "C120",
   "status": "proved",
   "theorems": [
    "Dw.Scalar.C120_observers",
    "Dw.Born.C120_born_observers",
    "Dw.Acoustic.C120_acoustic_observers",
    "Dw.Elastic.C120_elastic_observers"
   ],
   "note": ""
  },
  {
   "property": "C121",
   "status": "proved",
   "theorems": [
    "Dw.Storage.C121_stored_is_loaded",
    "Dw.Storage.C121_same_as_cpu",
    "Dw.Storage.C121_loaded_error",
    "Dw.Storage.C121_in_bounds"
   ],
   "note": ""
  },
  {
   "property": "C122",
   "status": "proved",
   "theorems": [
    "Dw.Storage.C122_own_data",
    "Dw.Storage.C122_empty",
    "Dw.Storage.C122_removed",
    "Dw.Storage.C122_others"
   ],
   "note": "uuids are taken to be distinct (C122_uuids_needed); removal that fails (ignore_errors) keeps the directory"
  },
  {
   "property": "C123",
   "status": "proved",
   "theorems": [
    "Dw.Scalar.C123_delay",
    "Dw.Born.C123_born_delay",
    "Dw.Acoustic.C123_acoustic_delay",
    "Dw.Elastic.C123_elastic_delay"
   ],
   "note": ""
  },
  {
   "property": "C124",
   "status": "proved",
   "theorems": [
    "Dw.Scalar.C124_causal",
    "Dw.Born.C124_born_causal",
    "Dw.Acoustic.C124_acoustic_causal",
    "Dw.Elastic.C124_elastic_causal"
   ],
   "note": "samples that are computed: the number of steps is nt rounded down to a multiple of model_gradient_sampling_interval"
  },
  {
   "property": "C125",
   "status": "proved",
   "theorems": [
    "Dw.Scalar.C125_axes",
    "Dw.Born.C125_born_axes",
    "Dw.Acoustic.C125_acoustic_axes",
    "Dw.Elastic.C125_elastic_axes"
   ],
   "note": "locations are whole coordinates or ignored in all dimensions, as in C90-C93"
  },
  {
   "property": "C126",
   "status": "proved",
   "theorems": [
    "Dw.Scalar.C126_near",
    "Dw.Born.C126_born_near",
    "Dw.Acoustic.C126_acoustic_near",
    "Dw.Elastic.C126_elastic_near"
   ],
   "note": "locations are whole coordinates or ignored in all dimensions, as in C90-C93"
  },
  {
   "property": "C127",
   "status": "proved",
   "theorems": [
    "Dw.Scalar.C127_edges",
    "Dw.Born.C127_born_edges",
    "Dw.Acoustic.C127_acoustic_edges",
    "Dw.Elastic.C127_elastic_edges"
   ],
   "note": "both calls are accepted; locations are whole coordinates or ignored in all dimensions, as in C90-C93"
  },
  {
   "property": "C128",
   "status": "proved",
   "theorems": [
    "Dw.Born.C128_linear_in_scatter"
   ],
   "note": ""
  },
  {
   "property": "C129",
   "status": "proved",
   "theorems": [
    "Dw.Scalar.C129_mirror",
    "Dw.Born.C129_born_mirror",
    "Dw.Acoustic.C129_acoustic_mirror",
    "Dw.Elastic.C129_elastic_mirror"
   ],
   "note": "for calls without survey_pad and initial wavefields and with whole coordinates"
  },
  {
   "property": "C130",
   "status": "proved",
   "theorems": [
    "Dw.Scalar.C130_scalar_callbacks",
    "Dw.Born.C130_born_callbacks",
    "Dw.Acoustic.C130_acoustic_callbacks",
    "Dw.Elastic.C130_elastic_callbacks"
   ],
   "note": ""
  },
  {
   "property": "C131",
   "status": "proved",
   "theorems": [
    "Dw.Scalar.C131_time_reversal",
    "Dw.Born.C131_born_time_reversal"
   ],
   "note": ""
  },
  {
   "property": "C132",
   "status": "proved",
   "theorems": [
    "Dw.Scalar.C132_scalar_copies",
    "Dw.Born.C132_born_copies",
    "Dw.Acoustic.C132_acoustic_copies",
    "Dw.Elastic.C132_elastic_copies"
   ],
   "note": ""
  },
  {
   "property": "C133",
   "status": "proved",
   "theorems": [
    "Dw.Scalar.C133_scalar_scale",
    "Dw.Born.C133_born_scale",
    "Dw.Acoustic.C133_acoustic_scale",
    "Dw.Elastic.C133_elastic_scale"
   ],
   "note": ""
  },
  {
   "property": "C134",
   "status": "proved",
   "theorems": [
    "Dw.Scalar.C134_scalar_convolution",
    "Dw.Born.C134_born_convolution",
    "Dw.Acoustic.C134_acoustic_convolution",
    "Dw.Elastic.C134_elastic_convolution"
   ],
   "note": ""
  },
  {
   "property": "C135",
   "status": "proved",
   "theorems": [
    "Dw.Scalar.C135_elsewhere",
    "Dw.Born.C135_born_elsewhere",
    "Dw.Acoustic.C135_acoustic_elsewhere",
    "Dw.Elastic.C135_elastic_elsewhere"
   ],
   "note": ""
  },
  {
   "property": "C136",
   "status": "proved",
   "theorems": [
    "Dw.Scalar.C136_abs_velocity",
    "Dw.Born.C136_born_abs_velocity",
    "Dw.Acoustic.C136_acoustic_abs_velocity"
   ],
   "note": ""
  },
  {
   "property": "C137",
   "status": "proved",
   "theorems": [
    "Dw.Acoustic.C137_acoustic_density",
    "Dw.Elastic.C137_elastic_density"
   ],
   "note": ""
  },
  {
   "property": "C138",
   "status": "proved",
   "theorems": [
    "Dw.Scalar.C138_no_pml",
    "Dw.Born.C138_born_no_pml",
    "Dw.Acoustic.C138_acoustic_no_pml",
    "Dw.Elastic.C138_elastic_no_pml"
   ],
   "note": ""
  },
  {
   "property": "C139",
   "status": "proved",
   "theorems": [
    "Dw.Scalar.C139_scalar_dot",
    "Dw.Born.C139_born_dot",
    "Dw.Acoustic.C139_acoustic_dot",
    "Dw.Elastic.C139_elastic_dot"
   ],
   "note": ""
  },
  {
   "property": "C140",
   "status": "proved",
   "theorems": [
    "Dw.Scalar.C140_gradient_near",
    "Dw.Born.C140_born_velocity",
    "Dw.Born.C140_born_scatter",
    "Dw.Acoustic.C140_acoustic_velocity",
    "Dw.Acoustic.C140_acoustic_density",
    "Dw.Elastic.C140_elastic_lambda",
    "Dw.Elastic.C140_elastic_mu",
    "Dw.Elastic.C140_elastic_buoyancy"
   ],
   "note": ""
  },
  {
   "property": "C141",
   "status": "proved",
   "theorems": [
    "Dw.Scalar.C141_scalar_sources",
    "Dw.Scalar.C141_scalar_velocity",
    "Dw.Born.C141_born_sources",
    "Dw.Born.C141_born_velocity",
    "Dw.Born.C141_born_scatter",
    "Dw.Acoustic.C141_acoustic_sources",
    "Dw.Acoustic.C141_acoustic_velocity",
    "Dw.Acoustic.C141_acoustic_density",
    "Dw.Elastic.C141_elastic_sources",
    "Dw.Elastic.C141_elastic_lambda",
    "Dw.Elastic.C141_elastic_mu",
    "Dw.Elastic.C141_elastic_buoyancy"
   ],
   "note": ""
  },
  {
   "property": "C142",
   "status": "proved",
   "theorems": [
    "Dw.Scalar.C142_scalar_causal",
    "Dw.Born.C142_born_causal",
    "Dw.Acoustic.C142_acoustic_causal",
    "Dw.Elastic.C142_elastic_causal"
   ],
   "note": ""
  },
  {
   "property": "C143",
   "status": "proved",
   "theorems": [
    "Dw.Scalar.C143_scalar_sources",
    "Dw.Born.C143_born_sources",
    "Dw.Acoustic.C143_acoustic_sources",
    "Dw.Elastic.C143_elastic_sources"
   ],
   "note": ""
  },
  {
   "property": "C144",
   "status": "proved",
   "theorems": [
    "Dw.Scalar.C144_scalar_velocity",
    "Dw.Born.C144_born_velocity",
    "Dw.Born.C144_born_scatter",
    "Dw.Acoustic.C144_acoustic_velocity",
    "Dw.Acoustic.C144_acoustic_density",
    "Dw.Elastic.C144_elastic_lambda",
    "Dw.Elastic.C144_elastic_mu",
    "Dw.Elastic.C144_elastic_buoyancy"
   ],
   "note": ""
  }
 ]
}
