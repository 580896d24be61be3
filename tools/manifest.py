"""Write MANIFEST.json.  Run after adding theorems: python3 tools/manifest.py"""
import json
import os

claims = []
G = "Dw.Gpu."


def c(prop, status, theorems, note=""):
    claims.append({"property": prop, "status": status, "theorems": theorems, "note": note})


S = "Dw.Scalar."
B = "Dw.Born."
T = "Dw.Storage."
c("C01", "proved", [S + "C01_callback_schedule_independent"])
c("C02", "proved", [S + "C02_forward_callback_events"],
  "Steps are counted in units of step_ratio * model_gradient_sampling_interval internal steps.")
c("C03", "proved", [S + "C03_stop_and_resume"])
c("C04", "proved", [S + "C04_backward_is_adjoint", S + "C10_superposition"])
c("C05", "proved", [S + "C05_velocity_gradient_exact"])
c("C06", "partial", [S + "C06_backward_callback_independent_partial",
                     S + "C06_gradient_with_several_threads",
                     S + "C06_fails_with_several_threads", G + "C06_gpu_gradient_with_callback",
                     G + "C06_fails_on_gpu"],
  "The full statement is false with several threads (on a GPU: several shots) and a shared model "
  "(witnesses proved, and formulas for what is computed). Proved for one thread or a model per shot.")
c("C07", "proved", [S + "C07_shots_independent_forward", S + "C07_shots_independent_backward",
                    S + "C07_no_race"])
c("C08", "proved", [S + "C08_gradient_is_sum_over_shots"])
c("C09", "proved", [S + "C09_backends_agree", S + "C09_fails_below_one_outer_step"],
  "At least one outer step; below that the compiled backend raises (second theorem).")
c("C10", "proved", [S + "C10_superposition", S + "C10_zero"])
c("C11", "proved", [S + "C11_causality"])
c("C12", "proved", [S + "C12_finite_speed"])
U = "Dw.Setup."
c("C13", "proved", [U + "C13_internal_time_step", U + "C13_rejects"])
c("C14", "proved", [S + "C14_energy_conserved", S + "C14_bounded_by_initial_energy",
                    S + "C14_never_blows_up"])
c("C15", "proved", [U + "C15_own_cell", U + "C15_different_cells", U + "C15_locations_in_extents",
                    U + "C15_extents_of_wavefields", U + "C15_model_at_location",
                    U + "C15_setup_well_formed"])
c("C16", "proved", [U + "C16_rejected_iff_duplicates"])
c("C17", "proved", [S + "C17_ignored_locations", U + "C17_ignored_index", U + "C17_partially_ignored"],
  "Last theorem: a location ignored in only some coordinates is neither rejected nor ignored.")
c("C18", "proved", [U + "C18_smallest_extents", U + "C18_fails_if_all_ignored"],
  "If every location is ignored there is no smallest box; the code then returns an empty extent.")
c("C19", "proved", [U + "C19_replicate", U + "C19_constant"])
c("C20", "proved", [U + "C20_views"])
c("C21", "proved", [U + "C21_profiles", U + "C21_no_amplification", U + "C21_time_step_sign",
                    U + "C21_scalar_profiles", U + "C21_acoustic_profiles",
                    U + "C21_elastic_profiles", U + "C21_fails_for_zero_frequency"],
  "For positive pml_freq; for pml_freq = 0, which is accepted, profiles are NaN (last theorem).")
c("C22", "proved", [S + "C22_each_interior_cell_once"])
c("C23", "proved", [S + "C23_forward_in_bounds", S + "C23_backward_in_bounds", S + "C23_locations_in_bounds",
                    T + "C27_compressed_slots", T + "C27_uncompressed_slots"],
  "Scalar propagator, CPU backend.")
c("C34", "partial", [S + "C34_all_samples_propagated_partial",
                     S + "C34_fails_if_interval_does_not_divide",
                     S + "C34_fewer_steps_than_interval"],
  "The full statement is false: if the sampling interval does not divide the number of steps the "
  "trailing samples are not propagated (witness proved). Proved when it divides.")
c("C35", "proved", [U + "C35_" + x for x in ["grid_spacing", "pml_width", "accuracy", "pml_freq",
  "max_vel", "nt", "interval", "fraction", "callback_frequency", "survey_pad", "amplitudes_match"]])
c("C36", "proved", [S + "C36_padding_round_trip"])
c("C41", "proved", [S + "C41_reciprocity"])
c("C42", "proved", [S + "C42_backward_callback_events"],
  "The callback sees wavefield_m1 with the opposite sign of the returned gradient.")
c("C45", "proved", [U + "C45_ndim_iff", U + "C45_unchecked_determining_field"],
  "If a wavefield or location is given; otherwise one check is skipped (second theorem).")
c("C37", "proved", [U + "C37_round_trip", U + "C37_round_trip_lame", U + "C37_round_trip_eps"])
c("C46", "proved", [U + "C46_ricker"])
c("C24", "proved", [T + "C24_stored_is_loaded"],
  "CPU backend. Mode cpu is turned into device for CPU tensors; mode none stores nothing.")
c("C25", "proved", [S + "C25_gradient_from_storage", S + "C25_storage_mode_independent"],
  "CPU backend, scalar propagator.")
c("C26", "proved", [T + "C26_compress_error", T + "C26_loaded_error"],
  "Exact arithmetic; see DESIGN.md for subnormal block maxima.")
c("C28", "proved", ["Dw.C28_first_derivative", "Dw.C28_second_derivative", "Dw.C28_staggered"],
  "The slices of the Python diffz1 functions of order 6 and 8 assume a batch dimension.")
c("C27", "proved", [T + "C27_compressed_slots", T + "C27_uncompressed_slots"])

c("C29", "proved", [B + "C29_" + x for x in ["born_is_derivative", "scattered_linear",
  "amplitudes_linear", "background_is_scalar", "padded_direction", "padded_direction_edge"]],
  "The last theorem shows that the condition on the edge is needed.")
c("C30", "proved", [B + "C30_scatter_gradient_is_transpose"], "Both backward and backward_sc.")
c("C47", "proved", [B + "C47_born_backward_is_adjoint"])
c("C48", "proved", [B + "C48_born_velocity_gradient"])
c("C49", "proved", [B + "C49_born_callback_schedule", B + "C49_born_forward_events"],
  "One thread, or a batched model; with several threads and an unbatched model see C06.")

A = "Dw.Acoustic."
c("C32", "proved", [A + "C32_acoustic_gradients_exact"],
  "Derivative with respect to all inputs; models not smaller than the finite-difference pad.")
c("C31", "proved", [A + "C31_acoustic_backward_is_adjoint", A + "C31_fails_for_tiny_model"],
  "For models not smaller than the finite-difference pad (Cfg.Big); the second theorem shows that the condition is needed.")
c("C33", "proved", [A + "C33_acoustic_backends_agree", A + "C33_fails_below_one_outer_step"])
c("C50", "proved", [A + "C50_acoustic_callback_schedule", A + "C50_acoustic_forward_events",
  A + "C50_acoustic_backward_events"],
  "One thread, or batched models; with several threads and unbatched models see C06.")

K = "Dw.Hicks."
F = "Dw.Interface."
c("C38", "proved", [K + "C38_source_receiver_transpose", K + "C38_spread_adjoint", K + "C38_locations_unique",
  K + "C38_rows_equal", K + "C38_source_zero_at_ignored", K + "C38_on_grid"])
c("C39", "partial", [K + "C39_measures_as_alone_partial", K + "C39_fails_at_free_surface",
  K + "C39_fails_for_close_fractions"],
  "The property is false: the cached weights are the tensor that is folded in place at a free surface, and "
  "fractional parts in the same eps bucket share weights. The partial theorem assumes neither happens.")
c("C51", "proved", [K + "C51_measures_odd_continuation"],
  "Stated for points whose cache entries are not corrupted (see C39).")
c("C52", "proved", [K + "C52_kernel_within_window", K + "C52_fails_for_negative_coordinate"],
  "The second theorem shows that the restriction to coordinates that are not negative is needed.")
c("C43", "partial", [F + "C43_cpu_calls_partial", F + "C43_cuda_calls", F + "C43_fails_for_backward_sc"],
  "False for one function: the CPU backward_sc of the Born propagator lacks the last parameter that Python "
  "declares and passes. All other functions agree in number, kind and meaning of the arguments.")
c("C53", "partial", [F + "C53_forward_fields", F + "C53_backward_fields_partial", F + "C53_fails_for_last_field",
  F + "C53_models_partial", F + "C53_fails_for_3d_models", F + "C53_python_fields_partial",
  F + "C53_python_fields_1d", F + "C53_fails_for_python_backend", F + "C53_python_backend_hides_sigmaxy"],
  "The property is false: in backward callbacks the last field is missing, in 3D the models are shown under "
  "the names of the 2D list, and with the Python backend the shear fields are empty or shown under other names.")
c("C54", "proved", [F + "C54_documented_order", F + "C54_buffers_exchanged", F + "C54_python_order"], "")
E = "Dw.Elastic."
c("C44", "proved", [E + "C44_elastic_backward_is_adjoint"],
  "For models not smaller than the finite-difference pad (Cfg.Big), as C31.")
c("C55", "proved", [E + "C55_elastic_gradients_exact"],
  "With respect to the parameters the kernel receives (after prepare_parameters).")
c("C56", "proved", [E + "C56_elastic_callback_schedule", E + "C56_elastic_forward_events",
  E + "C56_elastic_backward_events"],
  "One thread, or batched models; with several threads and unbatched models see C06.")
c("C57", "proved", [E + "C57_elastic_backends_agree", E + "C57_fails_below_one_outer_step",
  E + "C57_first_event_differs"], "For at least one outer step; below that only the compiled backend raises.")
c("C58", "proved", [F + "C58_elastic_zeroed", F + "C58_acoustic_zeroed"],
  "Index tables; the positions cleared within a field are in C36 and in the models of the propagators.")
Q = "Dw.Resample."
c("C40", "partial", [Q + "C40_lengths", Q + "C40_rejected", Q + "C40_samples", Q + "C40_round_trip_partial",
  Q + "C40_fails_with_padding"],
  "Lengths for all options, every r-th sample for all padding fractions, the round trip without padding; with "
  "padding the round trip is false (witness). Default frequency taper.")
c("C59", "proved", [Q + "C59_transpose", Q + "C59_fails_for_short_taper"],
  "A frequency taper, if requested, has to reach at least one bin; otherwise false (second theorem).")
c("C60", "proved", [Q + "C60_upsample", Q + "C60_downsample"], "Without tapers and padding.")
c("C61", "proved", [S + "C61_scalar_equation", A + "C61_acoustic_equations", E + "C61_elastic_equations"],
  "Step ratio and sampling interval 1, so that the call with nt steps can be compared with the call with nt + 1.")
c("C62", "partial", [G + "C62_events_in_every_step", G + "C62_single_stream",
  G + "C62_events_in_store_steps_partial", G + "C62_fails_for_events_in_store_steps"],
  "Holds for acoustic.cu and elastic.cu, and without a second stream. For scalar.cu and scalar_born.cu with a step "
  "ratio larger than 1 and an even number of snapshots at the end of a call it is false (last theorem): forward "
  "does not wait for its last save.")
c("C63", "proved", [G + "C63_forward", G + "C63_backward", G + "C63_gradient", G + "C63_gradient_per_shot",
  G + "C63_duplicate_sources_race"],
  "For shots whose sources (backward: receivers) are in different cells, as the validation guarantees (C16); the last "
  "theorem shows that this is needed. A shared model with a backward callback is C06.")
c("C64", "proved", [B + "C64_double_backward", B + "C64_fixed_velocity",
  B + "C64_fails_if_interval_does_not_divide"],
  "For snapshots at every step, one shot, one thread; without velocity gradient for every step ratio that divides the "
  "number of steps, which is needed (last theorem).")
c("C65", "proved", [A + "C65_acoustic_superposition", E + "C65_elastic_superposition"], "")
c("C66", "proved", [A + "C66_acoustic_stop_and_resume", E + "C66_elastic_stop_and_resume"], "")
c("C67", "proved", [A + "C67_acoustic_causality", A + "C67_acoustic_finite_speed", E + "C67_elastic_causality",
  E + "C67_elastic_finite_speed"], "")
c("C68", "proved", [A + "C68_energy_conserved", A + "C68_stable", A + "C68_stable_accuracy_two",
  A + "C68_never_blows_up", A + "C68_unstable_for_large_contrast"], "")
c("C69", "proved", [E + "C69_energy_conserved", E + "C69_stable", E + "C69_stable_accuracy_two",
  E + "C69_never_blows_up", E + "C69_unstable_for_large_contrast"],
  "Stresses in the initial wavefields must be zero in a vacuum and isotropic in a fluid, velocities zero where the "
  "buoyancy is; pressure sources must not be in a vacuum.")
c("C70", "proved", ["Dw.C70_no_race", A + "C70_acoustic_forward", A + "C70_acoustic_backward", E + "C70_elastic_forward",
  E + "C70_elastic_backward", B + "C70_born_forward", B + "C70_born_backward", B + "C70_born_backward_sc"],
  "One iteration of a time loop is an atomic step, justified by C70_no_race.")
c("C71", "proved", [A + "C71_acoustic_forward", A + "C71_acoustic_backward", E + "C71_elastic_forward",
  E + "C71_elastic_backward", B + "C71_born_forward", B + "C71_born_backward", B + "C71_born_backward_sc"],
  "For shots whose sources (backward: receivers) of a kind are in different cells (C16); streams and storage are C62.")
c("C72", "proved", [B + "C72_born_backends_agree", B + "C72_fails_below_one_outer_step"],
  "The memory variables shown to a callback at step 0 may differ, and with fewer internal steps than one outer step "
  "and no callback the compiled backend raises (second theorem), as in C09.")
c("C73", "proved", [B + "C73_born_superposition", B + "C73_born_stop_and_resume", B + "C73_born_causality",
  B + "C73_born_finite_speed"], "")
c("C74", "proved", [T + "C74_gpu_eq_cpu", T + "C74_gpu_error", T + "C74_gpu_in_bounds"],
  "What a thread does between two barriers is one step, justified by Dw.Storage.reduce_no_race.")
c("C75", "proved", [A + "C75_acoustic_reciprocity", A + "C75_acoustic_exchange_pressure",
  A + "C75_acoustic_exchange_velocity", A + "C75_acoustic_exchange_mixed"],
  "Internal time steps; resampling of amplitudes and traces is C59 and C60.")
c("C76", "proved", [E + "C76_elastic_reciprocity", E + "C76_elastic_exchange_velocity",
  E + "C76_elastic_exchange_pressure", E + "C76_elastic_exchange_mixed", E + "C76_pressure_not_reciprocal"],
  "The bulk modulus must not be zero at pressure sources and receivers; internal time steps as in C75.")
c("C77", "proved", [B + "C77_born_reciprocity"], "Internal time steps as in C75.")
c("C78", "proved", [U + "C78_regular_profiles", U + "C78_staggered_profiles", S + "C78_scalar_mirror",
  B + "C78_born_mirror", A + "C78_acoustic_mirror", E + "C78_elastic_mirror"],
  "Real arithmetic; internal time steps as in C75.")
c("C79", "proved", [S + "C79_shots_of_a_call"],
  "From the user's arguments to the returned tensors. If all locations of a tensor are ignored for the selected shots while initial wavefields are given, the code raises; this is excluded by a hypothesis.")
c("C80", "proved", [S + "C80_sign_of_dt"], "From the user's arguments to the returned tensors.")
c("C81", "proved", [S + "C81_cropped_by_hand", S + "C81_model_outside"],
  "From the user's arguments to the returned tensors; same exclusion as C79.")
c("C82", "proved", [S + "C82_superposition"], "From the user's arguments to the returned tensors.")
c("C83", "proved", [S + "C83_reciprocity"], "From the user's arguments to the returned tensors.")
c("C84", "proved", [S + "C84_stop_and_resume"],
  "From the user's arguments to the returned tensors. Without survey_pad the code raises in the second call if all locations of a tensor are ignored; this is excluded by a hypothesis, and so is an origin that the first call did not use.")
c("C85", "proved", [B + "C85_shots_of_a_call", A + "C85_shots_of_a_call", E + "C85_shots_of_a_call"],
  "From the user's arguments to the returned tensors.")
c("C86", "proved", [B + "C86_model_outside", A + "C86_model_outside", E + "C86_model_outside", B + "C86_cropped_by_hand"],
  "From the user's arguments to the returned tensors.")
c("C87", "partial", [A + "C87_cropped_by_hand_partial", E + "C87_cropped_by_hand_partial", A + "C87_not_in_the_last_cell", E + "C87_not_in_the_last_cell"],
  "The full statement is false: velocity sources and receivers are checked against the last cell of the whole model, not of the extents; a call that passes is rejected after cropping by hand (C87_not_in_the_last_cell). Proved for velocity locations before the last cell of the extents.")
c("C88", "proved", [B + "C88_sign_of_dt", A + "C88_sign_of_dt", E + "C88_sign_of_dt"],
  "From the user's arguments to the returned tensors.")
c("C89", "proved", [B + "C89_after_the_setup", A + "C89_after_the_setup", E + "C89_after_the_setup"],
  "Results with an undefined number (division by zero in the PML profiles) are modelled as none.")
c("C90", "proved", [S + "C90_scalar_scheme", S + "C90_traces"],
  "From the user's arguments to the returned tensors; the specification is Spec/Grid.lean.")
c("C91", "proved", [B + "C91_born_scheme"],
  "From the user's arguments to the returned tensors; the specification is Spec/Born.lean.")
c("C92", "proved", [A + "C92_acoustic_scheme", A + "C92_traces"],
  "From the user's arguments to the returned tensors; the specification is Spec/Acoustic.lean.")
c("C93", "proved", [E + "C93_elastic_scheme", E + "C93_traces"],
  "From the user's arguments to the returned tensors; the specification is Spec/Elastic.lean.")
c("C94", "proved", [S + "C94_gradients_exact"],
  "max_vel has to be given: otherwise it is taken from the model outside automatic differentiation, and the PML changes with it.")
c("C95", "proved", [S + "C95_source_gradients"], "Any time step ratio and gradient sampling interval.")
c("C96", "proved", [B + "C96_born_gradients_exact"], "max_vel has to be given, as for C94.")
c("C97", "proved", [B + "C97_born_source_gradients"], "Any time step ratio and gradient sampling interval.")
c("C98", "proved", [A + "C98_acoustic_gradients_exact"], "max_vel has to be given, as for C94; where a mean density is exactly the threshold the buoyancy is not differentiable.")
c("C99", "proved", [A + "C99_acoustic_source_gradients"], "Any time step ratio and gradient sampling interval.")
c("C100", "proved", [E + "C100_elastic_gradients_exact"], "max_vel has to be given, as for C94; the thresholds of prepare_parameters must not be hit exactly and harmonic means must be finite.")
c("C101", "proved", [E + "C101_elastic_source_gradients"], "Any time step ratio and gradient sampling interval.")
c("C102", "proved", [B + "C102_born_is_derivative", B + "C102_background"], "C29_padded_direction_edge shows why the edge condition is needed: the velocity is padded by replication, the scattering potential by zero.")
c("C103", "proved", [B + "C103_born_superposition", A + "C103_acoustic_superposition", E + "C103_elastic_superposition"], "C82 is the same for scalar.")
c("C104", "proved", [B + "C104_born_stop_and_resume", A + "C104_acoustic_stop_and_resume", E + "C104_elastic_stop_and_resume"], "C84 is the same for scalar.")
c("C105", "proved", [E + "C105_fluid", E + "fluid_maxVel"], "Both calls are assumed to pass the checks with the same extents.  fluid_maxVel: without max_vel the maximum velocities are equal too.")
c("C106", "proved", [S + "C106_scalar_never_blows_up", A + "C106_acoustic_never_blows_up", E + "C106_elastic_never_blows_up"], "User level form of C14, C68 and C69: the hypotheses are about the arguments of the call and the plan that the checks return.")
c("C107", "proved", [S + "C107_scalar_devices", S + "C107_scalar_python", B + "C107_born_devices", B + "C107_born_python", A + "C107_acoustic_devices", A + "C107_acoustic_python", E + "C107_elastic_devices", E + "C107_elastic_python"], "User level form of C07, C09, C33, C57, C63, C70, C71 and C72: that sources of a shot are in different cells, and that a model is shared only if it has one block, follows from the checks of the call. Memory variables that the Python backend shows a callback at step 0 are excluded for scalar, scalar_born and elastic (they are not yet zero inside).")
c("C108", "proved", [F + "C108_scalar", F + "C108_born", F + "C108_acoustic", F + "C108_elastic"], "The tables of parameters, defaults, type checks, assignments and call arguments are written out from the sources; the theorem holds for all values and all ways to give arguments.")
c("C109", "partial", [F + "C109_selects", F + "C109_refuses", F + "C109_argtypes_partial", F + "C109_fails_for_backward_sc"], "Selection is proved in full. The declared types fit all functions but backward_sc of scalar_born on the CPU (finding of C43), for which the claim is proved false.")
c("C110", "proved", [S + "C110_scalar", B + "C110_born", A + "C110_acoustic", E + "C110_elastic"], "The hypothesis about backward callbacks is the defect of C06, of which C06 proves that it is needed.")
c("C111", "proved", [A + "C111_acoustic_reciprocity", A + "C111_acoustic_reciprocity_mixed", E + "C111_elastic_reciprocity", E + "C111_elastic_reciprocity_pressure", E + "C111_elastic_reciprocity_mixed", B + "C111_born_reciprocity"], "Acceptance of the exchanged call is a conclusion, not a hypothesis; the traces include the resampling, except between pressure and velocity, where there must be no internal substeps.")
c("C112", "partial", [F + "C112_batched_refused", F + "C112_elastic_batched_partial", F + "C112_fails_for_sigmaxx"], "Holds for scalar, scalar_born and acoustic. False for elastic (refuted by C112_fails_for_sigmaxx); the partial theorem covers all arguments of elastic but sigmaxx_0.")
c("C113", "partial", [F + "C113_dimensions", F + "C113_elastic_dimensions_partial", F + "C113_fails_for_sigmaxx"], "Holds for scalar, scalar_born and acoustic. False for elastic (refuted by C113_fails_for_sigmaxx); the partial theorem covers all arguments of elastic but sigmaxx_0.")
c("C114", "partial", [F + "C114_no_tensor_ignored", F + "C114_staggered_partial", F + "C114_amplitudes_ignored"], "Holds for scalar and scalar_born. False for acoustic and elastic (refuted by C114_amplitudes_ignored); the partial theorem covers all tensors but the source amplitudes of an axis that the call does not have.")
c("C115", "proved", [U + "C115_warnings", U + "C115_silent", S + "C115_scalar_silent", B + "C115_born_silent", A + "C115_acoustic_silent", E + "C115_elastic_silent"], "The warnings of the setup; deprecation warnings and those of the Hicks interpolation are not modelled.")
c("C116", "proved", [F + "C116_forward", F + "C116_scalar", F + "C116_scalar_double", F + "C116_born", F + "C116_acoustic", F + "C116_elastic"], "The numbers of models, amplitudes, locations, wavefields and profiles are hypotheses (those of the functions that make the call). The rule by which PyTorch assigns returned gradients to inputs is part of the model (collect).")
c("C117", "proved", [F + "C117_scalar", F + "C117_born", F + "C117_born_models", F + "C117_acoustic"], "The callbacks of elastic are C53.")
c("C118", "partial", [F + "C118_variant", F + "C118_variants", F + "C118_storage_mode", F + "C118_refusals_partial", F + "C118_acoustic_ignores_compression"], "The refusal of options holds for scalar, scalar_born and elastic and is false for acoustic (refuted by C118_acoustic_ignores_compression); the rest is proved.")
c("C119", "proved", [S + "C119_order", B + "C119_born_order", A + "C119_acoustic_order", E + "C119_elastic_order"])
c("C120", "proved", [S + "C120_observers", B + "C120_born_observers", A + "C120_acoustic_observers", E + "C120_elastic_observers"])
c("C121", "proved", [T + "C121_stored_is_loaded", T + "C121_same_as_cpu", T + "C121_loaded_error", T + "C121_in_bounds"])
c("C122", "proved", [T + "C122_own_data", T + "C122_empty", T + "C122_removed", T + "C122_others"],
  note="uuids are taken to be distinct (C122_uuids_needed); removal that fails (ignore_errors) keeps the directory")
c("C123", "proved", [S + "C123_delay", B + "C123_born_delay", A + "C123_acoustic_delay", E + "C123_elastic_delay"])
c("C124", "proved", [S + "C124_causal", B + "C124_born_causal", A + "C124_acoustic_causal", E + "C124_elastic_causal"],
  note="samples that are computed: the number of steps is nt rounded down to a multiple of model_gradient_sampling_interval")
c("C125", "proved", [S + "C125_axes", B + "C125_born_axes", A + "C125_acoustic_axes", E + "C125_elastic_axes"],
  note="locations are whole coordinates or ignored in all dimensions, as in C90-C93")
c("C126", "proved", [S + "C126_near", B + "C126_born_near", A + "C126_acoustic_near", E + "C126_elastic_near"],
  note="locations are whole coordinates or ignored in all dimensions, as in C90-C93")
c("C127", "proved", [S + "C127_edges", B + "C127_born_edges", A + "C127_acoustic_edges", E + "C127_elastic_edges"],
  note="both calls are accepted; locations are whole coordinates or ignored in all dimensions, as in C90-C93")
c("C128", "proved", [B + "C128_linear_in_scatter"])
c("C129", "proved", [S + "C129_mirror", B + "C129_born_mirror", A + "C129_acoustic_mirror", E + "C129_elastic_mirror"],
  note="for calls without survey_pad and initial wavefields and with whole coordinates")
c("C130", "proved", [S + "C130_scalar_callbacks", B + "C130_born_callbacks", A + "C130_acoustic_callbacks",
                     E + "C130_elastic_callbacks"])
c("C131", "proved", [S + "C131_time_reversal", B + "C131_born_time_reversal"])
c("C132", "proved", [S + "C132_scalar_copies", B + "C132_born_copies", A + "C132_acoustic_copies", E + "C132_elastic_copies"])
c("C133", "proved", [S + "C133_scalar_scale", B + "C133_born_scale", A + "C133_acoustic_scale", E + "C133_elastic_scale"])
c("C134", "proved", [S + "C134_scalar_convolution", B + "C134_born_convolution", A + "C134_acoustic_convolution", E + "C134_elastic_convolution"])
c("C135", "proved", [S + "C135_elsewhere", B + "C135_born_elsewhere", A + "C135_acoustic_elsewhere", E + "C135_elastic_elsewhere"])
c("C136", "proved", [S + "C136_abs_velocity", B + "C136_born_abs_velocity", A + "C136_acoustic_abs_velocity"])
c("C137", "proved", [A + "C137_acoustic_density", E + "C137_elastic_density"])
c("C138", "proved", [S + "C138_no_pml", B + "C138_born_no_pml", A + "C138_acoustic_no_pml", E + "C138_elastic_no_pml"])
c("C139", "proved", [S + "C139_scalar_dot", B + "C139_born_dot", A + "C139_acoustic_dot", E + "C139_elastic_dot"])
c("C140", "proved", [S + "C140_gradient_near", B + "C140_born_velocity", B + "C140_born_scatter",
  A + "C140_acoustic_velocity", A + "C140_acoustic_density", E + "C140_elastic_lambda", E + "C140_elastic_mu", E + "C140_elastic_buoyancy"])
c("C141", "proved", [S + "C141_scalar_sources", S + "C141_scalar_velocity", B + "C141_born_sources", B + "C141_born_velocity",
  B + "C141_born_scatter", A + "C141_acoustic_sources", A + "C141_acoustic_velocity", A + "C141_acoustic_density",
  E + "C141_elastic_sources", E + "C141_elastic_lambda", E + "C141_elastic_mu", E + "C141_elastic_buoyancy"])
c("C142", "proved", [S + "C142_scalar_causal", B + "C142_born_causal", A + "C142_acoustic_causal", E + "C142_elastic_causal"])
c("C143", "proved", [S + "C143_scalar_sources", B + "C143_born_sources", A + "C143_acoustic_sources", E + "C143_elastic_sources"])
c("C144", "proved", [S + "C144_scalar_velocity", B + "C144_born_velocity", B + "C144_born_scatter", A + "C144_acoustic_velocity", A + "C144_acoustic_density", E + "C144_elastic_lambda", E + "C144_elastic_mu", E + "C144_elastic_buoyancy"])
out = os.path.join(os.path.dirname(__file__), "..", "MANIFEST.json")
with open(out, "w") as fh:
    json.dump({"claims": claims}, fh, indent=1)
    fh.write("\n")
