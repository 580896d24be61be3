import json
P=[]
def p(title, statement, quantifier, why, anchors):
    P.append(dict(id="C%02d"%(len(P)+1), title=title, statement=statement, quantifier=quantifier, why_tests_cant=why, anchors=anchors))

p("Forward output does not depend on the callback schedule",
  "Calling `scalar` with a forward callback that only reads, at any callback frequency, returns the same receiver amplitudes and the same final wavefields as calling it with no callback: splitting the time loop into chunks, with buffers exchanged after odd chunks, never changes the result.",
  "all models, sources, initial wavefields, PML settings, numbers of time steps, step ratios and callback frequencies",
  "tests run a few (nt, frequency) pairs; the buffer parity bug classes depend on the parity of every chunk length",
  ["src/deepwave/scalar.py:ScalarForwardFunc.forward", "src/deepwave/scalar.c:FUNC(forward)"])
p("Forward callbacks see every scheduled step once, with the state of that step",
  "With callback frequency f the forward callback runs exactly at steps 0, f, 2f, ... below the number of outer steps, in increasing order, and the wavefields it is given are those after exactly that many outer steps.",
  "all step counts and frequencies, all states", "enumeration of (nt, f) is infinite; wrong state at a late chunk only shows for particular parities",
  ["src/deepwave/scalar.py:ScalarForwardFunc.forward", "src/deepwave/common.py:CallbackState"])
p("Propagation can be stopped and resumed",
  "Running n1 steps, taking the returned wavefields as initial wavefields and running n2 more steps gives the same receiver data (concatenated) and final wavefields as running n1+n2 steps at once (no internal time resampling).",
  "all n1, n2, models, sources, initial wavefields, PML settings", "quantifies over all split points and states",
  ["src/deepwave/scalar.py:scalar", "docs/example_checkpointing.rst"])
p("The scalar backward pass is the exact adjoint of the forward pass",
  "For fixed velocity, forward propagation is a linear map from (source amplitudes, initial wavefields) to (receiver amplitudes, final wavefields), and the gradients returned by the backward pass are exactly the transpose of that map applied to the output gradients (dot-product test holds exactly in exact arithmetic).",
  "all dimensions (1D-3D and beyond), accuracies, model sizes, PML widths and profiles, step counts, chunkings, source and receiver layouts, wavefields and output gradients",
  "gradcheck samples a handful of tiny models with finite tolerance; an adjoint error in one region or for one PML width is missed",
  ["src/deepwave/scalar.c:FUNC(backward)", "src/deepwave/scalar.py:ScalarBackwardFunc.forward"])
p("The velocity gradient is the exact derivative",
  "When the wavefield is stored at every internal step (step ratio 1), the velocity gradient returned by the backward pass is exactly the derivative, with respect to velocity, of any linear functional of the forward outputs (for fixed scaled source amplitudes).",
  "all models, directions of perturbation, output gradients, step counts, PML settings", "finite-difference gradient checks are approximate and finite in number",
  ["src/deepwave/scalar.c:FUNC(backward)", "src/deepwave/scalar.c:FUNC(forward)"])
p("Model gradient does not depend on the backward callback schedule",
  "Supplying a backward callback that only reads, at any callback frequency, does not change the returned model gradient.",
  "all callback frequencies, thread counts, shot counts, batched and unbatched models", "depends on the combination of several chunks, several threads and an unbatched model",
  ["src/deepwave/scalar.py:ScalarBackwardFunc.forward", "src/deepwave/common_cpu.h:combine_grad"])
p("Shots are independent",
  "Each shot's receiver data and final wavefields are those of propagating that shot alone, whatever other shots are in the batch and in whatever order or number of threads the shots are executed.",
  "all batches, all thread counts and all execution orders of shots", "thread schedules are not enumerable by tests",
  ["src/deepwave/scalar.c:FUNC(forward)"])
p("Model gradient is the sum over shots for every thread schedule",
  "With a model shared by all shots, the gradient returned by one backward call is the sum of the gradients of the individual shots, for every number of threads and every assignment of shots to threads.",
  "all shot counts, thread counts, and assignments", "schedules are chosen by the OpenMP runtime", 
  ["src/deepwave/scalar.c:FUNC(backward)", "src/deepwave/common_cpu.h:combine_grad"])
p("Compiled and Python backends compute the same thing",
  "In exact arithmetic the compiled CPU forward propagator (with its split into PML and non-PML regions, in-place updates and double buffering) and the pure Python propagator produce the same receiver amplitudes, final wavefields and callback wavefields whenever at least one outer step is made.",
  "all model sizes, PML widths, accuracies, states, source and receiver layouts and step counts", "tests compare a few shapes to a tolerance; tiny models where PML regions overlap are a corner case",
  ["src/deepwave/scalar.c:FUNC(forward)", "src/deepwave/scalar.py:scalar_python", "src/deepwave/scalar.py:_forward_step"])
p("Superposition",
  "Receiver data and final wavefields are linear in the source amplitudes and initial wavefields jointly; zero input gives zero output.",
  "all inputs and scalings", "linearity is a statement about all pairs of inputs", ["src/deepwave/scalar.py:scalar"])
p("Causality",
  "The receiver amplitude at sample t does not depend on source amplitudes at samples >= t.",
  "all sources, all t", "all pairs of source signals", ["src/deepwave/scalar.c:FUNC(forward)"])
p("Finite propagation speed",
  "After k internal steps, the wavefield at a cell depends on the initial state, models and sources only within accuracy/2 * k cells of it along every axis.",
  "all states differing outside the cone, all k", "quantifies over all far-away perturbations", ["src/deepwave/regular_grid.h", "src/deepwave/scalar.c:FUNC(forward)"])
p("Internal time step obeys the CFL limit and divides dt",
  "For positive grid spacings and maximum velocity and non-zero dt, the internal time step times the step ratio is exactly dt, keeps the sign of dt, the step ratio is a positive integer, the Courant number is at most 0.6, and the step ratio is the smallest integer for which the implemented bound holds. dt = 0 is an error.",
  "all grid spacings, velocities, time steps", "real-valued inputs; ceil boundaries", ["src/deepwave/common.py:cfl_condition_n"])
p("Scalar propagation without PML is stable for ever",
  "With no PML and a time step chosen by the CFL rule, a discrete energy of the source-free wavefield is conserved at every step and bounds the wavefield uniformly in the number of steps: propagation cannot blow up.",
  "all velocity models (non-zero), all accuracies, sizes, initial states, and all numbers of steps", "tests run finitely many steps", ["src/deepwave/scalar.c:FUNC(forward)", "src/deepwave/common.py:cfl_condition_n"])
p("A location is mapped to its own cell",
  "A source or receiver location inside the survey extents becomes an index which addresses, in the padded array, exactly the cell that holds the model value at that location; different locations get different indices; the index is inside the array and outside the finite-difference edge.",
  "all dimensions, extents, paddings and locations", "strides and origins for all shapes", ["src/deepwave/common.py:_calculate_origin_and_stride", "src/deepwave/common.py:_convert_to_1d_and_check_uniqueness"])
p("Duplicate locations are rejected exactly when there are some",
  "extract_locations raises the uniqueness error if and only if two non-ignored locations of one shot lie in the same cell; so sources and receivers of an accepted shot never collide.",
  "all location lists", "all lists", ["src/deepwave/common.py:_convert_to_1d_and_check_uniqueness"])
p("IGNORE_LOCATION entries have no effect",
  "A source whose coordinates are all IGNORE_LOCATION does not influence any output, and a receiver whose coordinates are all IGNORE_LOCATION records zeros, wherever they stand in the list.",
  "all positions of ignored entries, all other inputs", "all placements", ["src/deepwave/common.py:IGNORE_LOCATION", "src/deepwave/common_cpu.h", "src/deepwave/common.py:_convert_to_1d_and_check_uniqueness"])
p("Survey extents are the smallest admissible box",
  "With survey_pad given, the extracted extents lie within the model, contain every non-ignored location, leave at least survey_pad cells between any location and the extent edge unless the model edge is nearer, and are the smallest such box; with survey_pad None the whole model is used.",
  "all model shapes, locations and pads (including per-side None)", "all combinations", ["src/deepwave/common.py:get_survey_extents_one_side", "src/deepwave/common.py:get_survey_extents_from_locations"])
p("Padding a model keeps its interior and replicates its edge",
  "The extracted model has extent+pad cells per dimension, equals the user's model on the extent, and in the padding equals the nearest extent cell.",
  "all shapes, extents, pads", "all sizes", ["src/deepwave/common.py:extract_models", "src/deepwave/common.py:reverse_pad"])
p("Callback views select the documented part",
  "CallbackState views: `inner` is exactly the cells of the survey extent, `pml` adds exactly the PML cells, `full` is everything, and any other view name is an error; the value of `inner` at model position p is the wavefield at that cell.",
  "all shapes, pads, positions, view names", "all shapes", ["src/deepwave/common.py:CallbackState._get_view"])
p("PML profiles are well formed",
  "For positive pml_freq and maximum velocity, the profiles satisfy 0 <= a <= 1, -1 <= b <= 0 and vanish outside the PML cells (fd pad + pml width at each end), so the PML does not alter the interior and never amplifies its memory variables; the time step sign does not matter.",
  "all widths, positions, time steps, velocities, frequencies", "real-valued inputs", ["src/deepwave/common.py:setup_pml", "src/deepwave/regular_grid.py:set_pml_profiles"])
p("Every interior cell is updated exactly once per step",
  "The loops over PML regions visit each cell at least accuracy/2 away from the array edge exactly once and no other cell, for every array size and PML width, including models so small that the PML regions meet.",
  "all sizes, PML widths, accuracies, forward and backward", "boundary arithmetic over all sizes", ["src/deepwave/scalar.py:ScalarForwardFunc.forward", "src/deepwave/scalar.c:FUNC(forward)"])
p("No out-of-bounds memory access in the stencils",
  "Every array element read or written by the propagator's loops lies inside the allocated array (wavefields, models, profiles, snapshots).",
  "all sizes, PML widths, accuracies, steps, shots", "sanitizers only see executed sizes", ["src/deepwave/scalar.c", "src/deepwave/acoustic.c", "src/deepwave/acoustic.py:AcousticForwardFunc.backward"])
p("What is stored is what is loaded",
  "Without compression, the snapshot the backward pass loads for a step and shot is the snapshot the forward pass saved for that step and shot, in every storage mode and for every chunking of the time loop.",
  "all step counts, ratios, shots, storage modes, chunkings", "all schedules", ["src/deepwave/storage_utils.c", "src/deepwave/common.py:StorageManager"])
p("Storage mode does not change gradients",
  "Without compression, gradients are the same for storage modes device, cpu and disk.",
  "all runs", "all runs", ["src/deepwave/storage_utils.c", "src/deepwave/scalar.py"])
p("Compression error is bounded by the block maximum",
  "With storage compression, every restored value differs from the stored one by at most 1/254 of the largest magnitude in its 8-per-dimension block; blocks of zeros are restored exactly.",
  "all arrays, all shapes including those not divisible by 8", "all real data", ["src/deepwave/simple_compress.c"])
p("Compressed snapshots fit their buffer and do not overlap",
  "The number of bytes the compressor writes for one snapshot is at most the size reserved for it, and the slots of different shots and steps do not overlap.",
  "all shapes and shots", "all shapes", ["src/deepwave/simple_compress.c", "src/deepwave/common.py:StorageManager.__init__"])
p("Finite-difference operators have the claimed order",
  "The first and second derivative stencils of accuracy p are exact on all polynomials of degree at most p (first) and p+1 (second); staggered stencils are exact to degree p. Compiled and Python versions agree.",
  "all polynomials, grid spacings, positions; accuracies 2,4,6,8", "all polynomials", ["src/deepwave/regular_grid.h", "src/deepwave/regular_grid.py", "src/deepwave/staggered_grid.h", "src/deepwave/staggered_grid.py"])
p("Born propagation is the derivative of scalar propagation",
  "The scattered wavefield and scattered receiver data of `scalar_born` with background v and scatter dv equal the exact derivative of the `scalar` wavefield and receiver data with respect to v in direction dv, for dv that is zero on the edge of the model (dv is padded with zeros but v by replication, so otherwise the direction is the zero-padded dv); they are linear in the scatter. The background outputs are those of `scalar`.",
  "all models, perturbations, sources, steps, PML settings", "limits over all perturbations", ["src/deepwave/scalar_born.c:FUNC(forward)"])
p("Born backward pass is the exact adjoint in the scattering potential",
  "The scatter gradient returned by the Born backward pass is the exact transpose of the linear map from scatter to scattered receiver data (step ratio 1).",
  "all backgrounds, scatters, output gradients", "all", ["src/deepwave/scalar_born.c:FUNC(backward)", "src/deepwave/scalar_born.c:FUNC(backward_sc)"])
p("The acoustic backward pass is the exact adjoint",
  "As C04 for the variable-density `acoustic` propagator: gradients with respect to pressure and velocity sources and initial wavefields are the exact transpose of the forward map.",
  "all dimensions, sizes, PML settings, sources, steps", "all", ["src/deepwave/acoustic.c"])
p("Acoustic model gradients are exact derivatives",
  "As C05 for bulk modulus and buoyancy in `acoustic` at step ratio 1.", "all models and directions", "all", ["src/deepwave/acoustic.c"])
p("Acoustic compiled and Python backends agree",
  "As C09 for `acoustic`.", "all sizes, states, steps", "all", ["src/deepwave/acoustic.c", "src/deepwave/acoustic.py"])
p("Requested number of samples is returned",
  "The receiver data has as many time samples as the user asked for (nt or the source length), each computed by propagation, for every model_gradient_sampling_interval.",
  "all nt, step ratios, sampling intervals", "divisibility corner cases", ["src/deepwave/common.py:set_nt", "src/deepwave/scalar.py:ScalarForwardFunc.forward"])
p("Argument validation accepts exactly the documented inputs",
  "accuracy, pml_width, grid_spacing, survey_pad, nt, taper and pad fractions, sampling interval, callback frequency: each validator returns the documented normalised value on valid input and raises on everything else.",
  "all argument values", "all values", ["src/deepwave/common.py:set_accuracy", "src/deepwave/common.py:set_pml_width", "src/deepwave/common.py:set_grid_spacing", "src/deepwave/common.py:set_survey_pad", "src/deepwave/common.py:set_nt"])
p("Wavefield padding round trip",
  "A wavefield returned by one call and given to the next is placed on the same cells: removing the edge padding undoes adding it, and an absent wavefield behaves as zeros.",
  "all shapes and contents", "all", ["src/deepwave/common.py:create_or_pad", "src/deepwave/scalar.py"])
p("Elastic parameter conversions are mutually inverse",
  "vp,vs,rho -> lambda,mu,buoyancy -> vp,vs,rho returns the starting values, with eps = 0 for vp, vs >= 0, rho > 0; with the default eps the relative error of density is bounded by eps-order terms.",
  "all positive parameters", "real-valued", ["src/deepwave/common.py:vpvsrho_to_lambmubuoyancy", "src/deepwave/common.py:lambmubuoyancy_to_vpvsrho"])
p("Off-grid sources and receivers are adjoint and locations unique",
  "Hicks.source spreads amplitudes over unique grid locations and Hicks.receiver gathers with the same weights, so the two are transposes; a point on the grid is mapped to that single cell with weight one.",
  "all location sets, amplitudes", "all", ["src/deepwave/location_interpolation.py:Hicks"])
p("Hicks weights depend only on the point itself",
  "The interpolation weights of a point do not depend on which other points are in the same call.",
  "all sets and orders of points, free-surface settings", "cache state depends on history", ["src/deepwave/location_interpolation.py:_get_hicks_for_one_location_dim"])
p("Resampling keeps lengths and in-band samples",
  "Upsampling by r gives r times as many samples, downsampling gives the number back, and downsampling an upsampled signal gives the signal with only the zeroed frequency bin removed; every r-th upsampled sample is that filtered signal.",
  "all signals, lengths, ratios, padding fractions", "all signals", ["src/deepwave/common.py:upsample", "src/deepwave/common.py:downsample"])
p("Reciprocity without PML",
  "With no PML, exchanging a source and a receiver location leaves the recorded trace unchanged.",
  "all non-zero velocity models, locations, wavelets, step counts", "all pairs of positions", ["src/deepwave/scalar.py:scalar", "src/deepwave/scalar.c:FUNC(forward)"])
p("Backward callbacks run at the documented steps and see the adjoint state of that step",
  "With callback frequency f and N outer steps the backward callback runs at steps N-f, N-2f, ..., ending with step 0 exactly once, with gradients complete down to that step.",
  "all N, f", "all", ["src/deepwave/scalar.py:ScalarBackwardFunc.forward"])
p("Compiled function interface matches its call sites",
  "For every propagator, pass and dimension the number and kind of arguments declared for the compiled function equal the C signature.",
  "all propagators, dimensions, passes", "wrong arity is undefined behaviour that may appear to work", ["src/deepwave/backend_utils.py", "src/deepwave/scalar.c", "src/deepwave/acoustic.c", "src/deepwave/elastic.c", "src/deepwave/scalar_born.c"])
p("Elastic backward pass is the exact adjoint",
  "As C04 for the `elastic` propagator.", "all", "all", ["src/deepwave/elastic.c"])
p("Number of spatial dimensions is inferred consistently",
  "The dimension inferred from models, locations, wavefields and grid settings equals each supplied item's dimension, or the call is rejected.",
  "all combinations of supplied arguments", "all", ["src/deepwave/common.py:get_ndim"])
p("Ricker wavelet shape",
  "ricker(freq, length, dt, peak_time) has length samples, value 1 at a sample at the peak time, never exceeds 1, and is symmetric about the peak time.",
  "all frequencies, lengths, intervals, peak times", "real-valued", ["src/deepwave/wavelets.py:ricker"])
p("Born backward pass is the exact adjoint in sources and wavefields",
  "For fixed models, the gradients of the background and scattered source amplitudes and initial wavefields returned by the Born backward pass satisfy the exact dot-product identity with the background and scattered outputs together.",
  "all models, scatters, amplitudes, wavefields, output gradients, step ratios, callback schedules", "all", ["src/deepwave/scalar_born.c:FUNC(backward)", "src/deepwave/scalar_born.py:ScalarBornForwardFunc"])
p("Born velocity gradient is the exact derivative",
  "With snapshots at every step, the velocity gradient of the Born backward pass is the derivative of any linear functional of all four outputs with respect to the background velocity.",
  "all models, perturbations, amplitudes, output gradients", "limits over all perturbations", ["src/deepwave/scalar_born.c:FUNC(backward)"])
p("Born results do not depend on the callback schedule",
  "Outputs and gradients of the Born passes are the same with any callback frequency as without callbacks; forward callbacks run at steps 0, f, 2f, ... and see both fields of that step.",
  "all frequencies, step counts, models", "all", ["src/deepwave/scalar_born.py:ScalarBornForwardFunc"])
p("Acoustic results do not depend on the callback schedule",
  "Outputs and gradients of the acoustic passes are the same with any callback frequency as without callbacks; forward callbacks run at steps 0, f, 2f, ... and see the wavefields of that step; backward callbacks run at N-f, N-2f, ..., 0 and see the adjoint wavefields and model gradients of that step.",
  "all frequencies, step counts, models", "all", ["src/deepwave/acoustic.py:AcousticForwardFunc"])
p("Hicks interpolation at a free surface measures the odd continuation",
  "With free surfaces at cells or half-way between cells and points between them, Hicks succeeds and the receiver value at a point is the windowed interpolation, along both dimensions, of the odd continuation of the field across the free surfaces.",
  "all fields vanishing on the surfaces, points, half-widths, window functions", "all positions of the point relative to the surface", ["src/deepwave/location_interpolation.py:_get_hicks_for_one_location_dim"])
p("Hicks windows stay within the half-width",
  "For points with coordinates that are not negative the window function is only evaluated at distances up to the half-width, where it is defined.",
  "all points, half-widths, free-surface settings", "all real coordinates", ["src/deepwave/location_interpolation.py:_get_hicks_for_one_location_dim"])
p("Elastic callbacks show every quantity under its own name",
  "A callback of the elastic propagator finds every wavefield, every model and every model gradient under the name of that quantity, in the forward and backward pass, in one, two and three dimensions and with both backends.",
  "all dimensions, passes, quantities, tensor contents", "tests look at one field in 2D", ["src/deepwave/elastic.py:ElasticForwardFunc"])
p("Elastic outputs are in documented order and buffers are exchanged with their own partner",
  "The final wavefields of the elastic propagator are returned in the documented order in every dimension; after an odd number of backward steps every double-buffered field is exchanged with its own second buffer and no other field moves.",
  "all dimensions, fields, tensor contents", "index tables for 27 fields", ["src/deepwave/elastic.py:elastic", "src/deepwave/elastic.py:ElasticForwardFunc"])
p("Elastic gradients are exact derivatives",
  "With snapshots at every step, the gradients of lambda, mu, the shear moduli at the shear stress points, the buoyancies at the velocity points, the source amplitudes and the initial wavefields returned by the elastic backward pass give the derivative of any linear functional of the receiver data and final wavefields along every direction.",
  "all models, directions, amplitudes, wavefields, output gradients, callback schedules, dimensions", "limits over all perturbations", ["src/deepwave/elastic.c:FUNC(forward)", "src/deepwave/elastic.c:FUNC(backward)", "src/deepwave/elastic.py:ElasticForwardFunc"])
p("Elastic results do not depend on the callback schedule",
  "Outputs and gradients of the elastic passes are the same with any callback frequency as without callbacks; forward callbacks run at steps 0, f, 2f, ... and see the wavefields of that step; backward callbacks run at N-f, N-2f, ..., 0 and see the adjoint wavefields and model gradients of that step.",
  "all frequencies, step counts, models", "all", ["src/deepwave/elastic.py:ElasticForwardFunc"])
p("The two elastic backends agree",
  "The Python backend of the elastic propagator returns the same final wavefields and receiver data as the compiled one, ignored receivers included, and shows the same velocities and stresses to the callback at the same steps; memory variables differ at most at step 0 outside the PML.",
  "all models, sources, receivers, initial wavefields, step ratios, callback schedules, dimensions", "all", ["src/deepwave/elastic.py:elastic_python", "src/deepwave/elastic.c:FUNC(forward)"])
p("Initial wavefields are cleared exactly where they do not belong to the grid",
  "The elastic and acoustic propagators clear every supplied wavefield (and every supplied gradient) at the trailing edge in exactly the dimensions in which it lies at half points, and every memory variable in the interior of exactly the dimension of its derivative, and touch no other field.",
  "all dimensions, all fields", "index tables for 27 fields", ["src/deepwave/elastic.py:zero_edges_and_interiors", "src/deepwave/acoustic.py:zero_edges_and_interiors"])
p("Downsampling is the transpose of upsampling",
  "With the same ratio and the same frequency taper, time padding and time taper, the inner product of an upsampled signal with y is the ratio times the inner product of the signal with the downsampled y.",
  "all signals, lengths, ratios, taper and padding fractions", "all signals", ["src/deepwave/common.py:upsample", "src/deepwave/common.py:downsample"])
p("Resampling has the documented frequency response",
  "Upsampling reproduces a cosine of any phase at the new times if its frequency is below the last bin; downsampling gives it at the remaining times, delayed by exactly the requested shift; at and above the last frequency bin of the coarse signal the result is zero.",
  "all lengths, ratios, frequencies, phases, real shifts", "all frequencies and shifts", ["src/deepwave/common.py:upsample", "src/deepwave/common.py:downsample"])
p("The steps approximate the stated wave equations",
  "Outside the PML, wherever the wavefield is a polynomial of degree up to the order of the scheme along each dimension, one step of the scalar propagator gives 2 u - u_prev + v^2 dt^2 times the exact Laplacian plus the source, one step of the acoustic propagator gives v - dt B grad p and p - dt K div v with the exact derivatives at the staggered points, and one step of the elastic propagator gives v + dt B div sigma, and sigma + dt (lambda tr(e) I + 2 mu e) with e the exact strain rate.",
  "all models, sources, step counts, initial wavefields, polynomials, accuracies, dimensions", "tests compare with one analytic solution", ["src/deepwave/scalar.c:FUNC(forward)", "src/deepwave/acoustic.c:FUNC(forward)", "src/deepwave/elastic.c:FUNC(forward)"])
p("GPU results do not depend on the scheduling of the streams",
  "In every order in which the device may execute the commands that the CUDA functions enqueue on their streams, wavefields, receiver data and gradients are those of a recursion over the steps in which each backward step uses the snapshot made by the forward pass at the same step, for every storage mode, with and without compression, and for every division of the steps into calls.",
  "all executions allowed by streams and events, step counts, step ratios, calls, storage modes", "races show on some devices and loads only", ["src/deepwave/scalar.cu:FUNC(forward)", "src/deepwave/scalar.cu:FUNC(backward)", "src/deepwave/scalar_born.cu:FUNC(forward)", "src/deepwave/acoustic.cu:FUNC(forward)", "src/deepwave/elastic.cu:FUNC(forward)", "src/deepwave/storage_utils.cu:STORAGE_FUNC(save_snapshot_gpu)"])
p("The scalar GPU kernels compute what the CPU functions compute",
  "For every number of shots, every grid size and every order in which the GPU threads run, the CUDA forward and backward functions leave the same wavefields, receiver data, snapshots and per-shot gradients as the CPU functions.",
  "all grid sizes, shots, thread orders, models, sources, receivers, dimensions", "all", ["src/deepwave/scalar.cu:forward_kernel", "src/deepwave/scalar.cu:backward_kernel", "src/deepwave/scalar.cu:FUNC(forward)", "src/deepwave/scalar.cu:FUNC(backward)"])
p("Double backpropagation is the derivative of the backward pass",
  "The gradients returned by differentiating the scalar backward pass (with respect to the velocity, source amplitudes, initial wavefields and the incoming gradients) are the derivatives of any linear functional of the gradients which the backward pass returns; the velocity part is the Hessian of the objective applied to the given vector.",
  "all models, directions, amplitudes, wavefields, incoming gradients, numbers of steps of both parities, dimensions", "limits over all perturbations; parity of the step count selects other buffers", ["src/deepwave/scalar.py:ScalarBackwardFunc"])
p("Superposition holds for the acoustic and elastic propagators",
  "Receiver data and final wavefields for a linear combination of the amplitudes of all pressure and force sources and of all initial wavefields are the same linear combination of the separate results.",
  "all models, amplitudes, initial wavefields, coefficients, step counts, PML widths, dimensions", "all inputs", ["src/deepwave/acoustic.py:acoustic", "src/deepwave/elastic.py:elastic", "src/deepwave/acoustic.c:FUNC(forward)", "src/deepwave/elastic.c:FUNC(forward)"])
p("Acoustic and elastic runs can be stopped and resumed",
  "Giving the wavefields returned after n1 steps to a second run of n2 steps with the remaining amplitudes gives the receiver data and final wavefields of one run of n1 + n2 steps; all memory variables survive the crop and the renewed padding and clearing.",
  "all models, n1, n2 divisible by the step ratio, initial wavefields, PML widths, dimensions", "all splits", ["src/deepwave/acoustic.py:AcousticForwardFunc", "src/deepwave/elastic.py:ElasticForwardFunc"])
p("Acoustic and elastic propagation is causal and has finite speed",
  "A receiver sample at t does not depend on amplitudes at t or later nor on sources without location; wavefields at a point after N steps depend only on models, amplitudes and initial wavefields within N times the accuracy of that point.",
  "all models, amplitudes, initial wavefields, points, step counts", "all pairs of inputs that agree near a point", ["src/deepwave/acoustic.c:FUNC(forward)", "src/deepwave/elastic.c:FUNC(forward)"])
p("The acoustic propagator is stable without PML",
  "Without PML and sources the discrete energy of the returned wavefields equals that of the given ones for any number of steps. With the internal time step that the CFL function chooses, the sum of potential and kinetic energy never exceeds a fixed multiple of its initial value and receiver data stay bounded after sources have ended: for accuracy 2 for all positive densities and velocities, for higher accuracies if the density at stencil points is at most ten times the mean at the centre; without that condition there are models which grow exponentially.",
  "all models, initial wavefields, step counts, grid spacings, dimensions, sources of finite duration", "unbounded run lengths, all models", ["src/deepwave/acoustic.c:FUNC(forward)", "src/deepwave/acoustic.py:prepare_models", "src/deepwave/common.py:cfl_condition_n"])
p("The elastic propagator is stable without PML",
  "Without PML and sources the discrete energy (deformation plus motion) of the returned wavefields equals that of the given ones for any number of steps, in media composed of solids, fluids and vacuum. With the internal time step that the CFL function chooses for a velocity not exceeded by the P-wave velocity, the sum of the energies never exceeds a fixed multiple of its initial value, and wavefields and receiver data stay bounded after sources have ended: for accuracy 2 for all media, for higher accuracies if the stiffness near a velocity point is at most 8/5 of the mean density there times the square of the velocity; without that condition there are models which grow exponentially.",
  "all nonnegative moduli, buoyancies, initial wavefields that the medium can carry, step counts, grid spacings, dimensions, sources of finite duration", "unbounded run lengths, all models", ["src/deepwave/elastic.c:FUNC(forward)", "src/deepwave/elastic.py:prepare_parameters", "src/deepwave/common.py:cfl_condition_n"])
p("Acoustic, elastic and Born shots are independent and their gradients add up",
  "Receiver data, wavefields, snapshots, source gradients and callback views of every shot of the acoustic, elastic and Born propagators are those of the shot propagated alone, for every number of threads, assignment of shots to threads and interleaving; each block of a model gradient is the sum over the shots that use that block of the model (with several threads, a shared model and a backward callback: the sum over the callbacks of the gradients so far). Iterations of different threads never access the same element.",
  "all numbers of shots and threads, schedules, models shared or one per shot in any combination, callback schedules", "all interleavings", ["src/deepwave/acoustic.c:FUNC(backward)", "src/deepwave/elastic.c:FUNC(backward)", "src/deepwave/scalar_born.c:FUNC(backward)", "src/deepwave/scalar_born.c:FUNC(backward_sc)", "src/deepwave/common_cpu.h:combine_grad"])
p("The acoustic, elastic and Born GPU kernels compute what the CPU functions compute",
  "For every number of shots, every grid size and every order in which the GPU threads run, the CUDA forward and backward functions of the acoustic, elastic and Born propagators leave for each shot the wavefields, receiver data, snapshots, source gradients and callback views of the CPU functions for that shot alone, and each block of a model gradient is the sum over the shots that use it (with several shots, a shared model and a backward callback: the sum over the callbacks of the gradients so far).",
  "all grid sizes, shots, thread orders, models shared or one per shot in any combination, sources, receivers, dimensions", "all thread orders; needs a GPU", ["src/deepwave/acoustic.cu:FUNC(forward)", "src/deepwave/acoustic.cu:FUNC(backward)", "src/deepwave/elastic.cu:FUNC(forward)", "src/deepwave/elastic.cu:FUNC(backward)", "src/deepwave/scalar_born.cu:FUNC(forward)", "src/deepwave/scalar_born.cu:FUNC(backward)", "src/deepwave/scalar_born.cu:FUNC(backward_sc)"])
p("The compiled and the Python backend of the Born propagator agree",
  "scalar_born with python_backend returns the same final wavefields and receiver data of the background and of the scattered field as the compiled backend and calls the callback at the same steps with the same wavefields.",
  "all models, scattering potentials, amplitudes, initial wavefields, step counts, callback frequencies, PML widths, dimensions", "all inputs", ["src/deepwave/scalar_born.py:scalar_born_python", "src/deepwave/scalar_born.py:_forward_step", "src/deepwave/scalar_born.c:FUNC(forward)"])
p("Born propagation is linear, can be resumed, is causal and has finite speed",
  "For a fixed velocity and scattering potential both fields are jointly linear in the amplitudes and initial wavefields of both; runs stopped after n1 steps and resumed from the returned wavefields of both fields give the result of one run; receiver samples at t do not depend on amplitudes at t or later; wavefields at a point after N steps depend only on velocity, scattering potential, amplitudes and initial wavefields within N times half the accuracy of that point.",
  "all models, scattering potentials, amplitudes, initial wavefields, splits, step counts, points, PML widths, dimensions", "all inputs", ["src/deepwave/scalar_born.py:ScalarBornForwardFunc", "src/deepwave/scalar_born.c:FUNC(forward)"])
p("GPU compression gives the CPU result for every thread order",
  "For every number of shots, every array shape and every interleaving of blocks and threads allowed by the barriers, the CUDA kernels compress and decompress the snapshots of each shot to the values that the CPU functions give for that shot alone (so within 1/254 of the largest magnitude in the 8-per-dimension block), and write only inside the slot of n_shots * shot_bytes_comp bytes.",
  "all shapes, shots, values, element sizes, buffers, executions of the threads, dimensions", "all interleavings; needs a GPU", ["src/deepwave/simple_compress.cu:compress_kernel", "src/deepwave/simple_compress.cu:decompress_kernel", "src/deepwave/simple_compress.cu:SC_FUNC(compress_cuda)", "src/deepwave/common.py:StorageManager"])
p("Acoustic sources and receivers can be exchanged",
  "Without PML and starting at rest, the trace of a pressure source recorded by a pressure receiver is unchanged when source and receiver change places; component l of the velocity due to a force along k equals component k due to a force along l with places exchanged; the velocity due to a pressure source is minus the pressure due to the corresponding force, one sample later. More generally, the traces of two sets of sources with any amplitudes satisfy the reciprocity relation of convolution type.",
  "all velocity and density models (vacuum included), places, wavelets, step counts, accuracies, dimensions", "all models and wavelets", ["src/deepwave/acoustic.py:acoustic", "src/deepwave/acoustic.c:FUNC(forward)"])
p("Elastic sources and receivers can be exchanged",
  "Without PML and starting at rest, component l of the velocity due to a force along k equals component k due to a force along l with places exchanged. Pressure traces divided by the bulk modulus at the receiver are unchanged when a pressure source and a pressure receiver change places (without the division they differ); the velocity due to a pressure source is minus the pressure due to the corresponding force divided by the bulk modulus at the pressure source, one sample later.",
  "all models, places, wavelets, step counts, accuracies, dimensions", "all models and wavelets", ["src/deepwave/elastic.py:elastic", "src/deepwave/elastic.c:FUNC(forward)"])
p("Born sources and receivers can be exchanged",
  "Without PML and starting at rest, the scattered trace of a source recorded by a receiver is unchanged when source and receiver change places, wherever the receivers of the background field are.",
  "all velocity models, scattering potentials, places, wavelets, step counts, accuracies, dimensions", "all models, potentials and wavelets", ["src/deepwave/scalar_born.py:scalar_born", "src/deepwave/scalar_born.c:FUNC(forward)"])
p("Mirrored problems have mirrored solutions",
  "Reflecting the models, the PML widths, the locations and the initial wavefields in any set of dimensions, and negating the amplitudes of forces along those dimensions, gives the same scalar, Born and pressure traces, the same particle velocity traces up to the sign of the reflected components, and the mirrored final wavefields and callback wavefields. This holds for all four propagators, although staggered grids have points on one side only.",
  "all models, PML widths, locations, amplitudes, initial wavefields, step counts, callback schedules, accuracies, dimensions, sets of reflected dimensions", "all models, all sets of dimensions", ["src/deepwave/scalar.c:FUNC(forward)", "src/deepwave/scalar_born.c:FUNC(forward)", "src/deepwave/acoustic.c:FUNC(forward)", "src/deepwave/elastic.c:FUNC(forward)", "src/deepwave/acoustic.py:prepare_models", "src/deepwave/elastic.py:prepare_parameters", "src/deepwave/regular_grid.py:set_pml_profiles", "src/deepwave/staggered_grid.py:set_pml_profiles"])
p("A call with some of the shots gives the results of those shots",
  "Calling scalar with any selection of the shots of a batch (any order, repetitions allowed; amplitudes, locations, initial wavefields and batched velocity models indexed by the selection) gives for each selected shot the final wavefields, receiver traces and callback views that the call with the whole batch gives, if survey_pad is not used and max_vel is given or the model is shared by the shots.",
  "all arguments of scalar accepted by its checks, all selections of shots", "all batches, all selections, with the setup in between", ["src/deepwave/scalar.py:scalar", "src/deepwave/common.py:setup_propagator", "src/deepwave/common.py:get_n_batch", "src/deepwave/common.py:extract_survey"])
p("The sign of the time step has no effect",
  "scalar with -dt succeeds exactly if scalar with dt does and returns the same wavefields, receiver traces and callback views.",
  "all arguments of scalar", "all arguments, PML profiles included", ["src/deepwave/scalar.py:scalar", "src/deepwave/common.py:cfl_condition_n", "src/deepwave/common.py:setup_pml", "src/deepwave/common.py:set_pml_freq"])
p("Restricting the survey is the same as cropping the model",
  "If survey_pad, or initial wavefields with an origin, restrict the computation to a part of the model, then the outputs are those of a call without these arguments where the model has been cropped to that part and the locations have been shifted accordingly (max_vel being given or the same for both models). With max_vel given, the values of the model outside that part have no effect on the outputs.",
  "all arguments of scalar accepted by its checks", "all arguments, all extents", ["src/deepwave/scalar.py:scalar", "src/deepwave/common.py:setup_propagator", "src/deepwave/common.py:extract_survey", "src/deepwave/common.py:extract_models", "src/deepwave/common.py:extract_locations"])
p("Calls of scalar obey superposition",
  "If calls of scalar without initial wavefields succeed for two source amplitude tensors of the same shape, other arguments being equal, then the call with a linear combination of the two tensors succeeds, and its final wavefields and receiver traces are the same linear combination. This includes the upsampling of the amplitudes and the downsampling of the traces when dt exceeds the CFL limit.",
  "all arguments of scalar accepted by its checks, all amplitudes, all coefficients", "all amplitudes and models, any internal time step ratio", ["src/deepwave/scalar.py:scalar", "src/deepwave/common.py:set_source_amplitudes", "src/deepwave/common.py:upsample", "src/deepwave/common.py:downsample_and_movedim"])
p("Source and receiver of a call of scalar can be exchanged",
  "With pml_width=0, no initial wavefields, one source and one receiver per shot, calling scalar with source_locations and receiver_locations exchanged succeeds if the first call does and gives the same receiver trace, for any velocity model, cell spacing, survey_pad and time step.",
  "all arguments of scalar accepted by its checks with pml_width=0", "all models, locations and amplitudes", ["src/deepwave/scalar.py:scalar", "src/deepwave/common.py:setup_propagator", "src/deepwave/common.py:extract_survey"])
p("A call of scalar can be split in two",
  "If dt does not exceed the CFL limit and the gradient sampling interval divides the lengths, a call of scalar with n1 + n2 time samples can be replaced by a call with the first n1 samples and one with the other n2 samples that is given the returned wavefields as initial wavefields, other arguments unchanged. Both calls are accepted by the checks, the returned wavefields have the shape the second call expects, the final wavefields are those of the single call and the traces are its traces cut after n1 samples.",
  "all arguments of scalar accepted by its checks with internal time step ratio 1", "all split points, with survey_pad or an origin, with or without initial wavefields", ["src/deepwave/scalar.py:scalar", "src/deepwave/common.py:prepare_wavefields", "src/deepwave/common.py:get_survey_extents_from_wavefields", "src/deepwave/common.py:check_extents_match_wavefields_shape"])
p("Shots of a call of scalar_born, acoustic or elastic are independent",
  "If a call of scalar_born, acoustic or elastic succeeds, a call with any selection of its shots (any list of shot indices, repetitions and any order allowed, applied to all batched arguments) succeeds and returns for each selected shot the same wavefields, receiver traces and callback values, provided that max_vel is given and the survey extents do not depend on the selection.",
  "all arguments accepted by the checks, all selections of shots", "all batches, models and locations", ["src/deepwave/scalar_born.py:scalar_born", "src/deepwave/acoustic.py:acoustic", "src/deepwave/elastic.py:elastic", "src/deepwave/common.py:setup_propagator"])
p("Models outside the survey extents have no effect",
  "If a call of scalar_born, acoustic or elastic with max_vel given succeeds, changing the models outside the part selected by survey_pad or by the initial wavefields changes nothing in the returned wavefields, traces and callback values. For scalar_born, cropping the models and shifting the locations by hand also gives the same result.",
  "all arguments accepted by the checks, all changes of the models outside the extents", "all models and survey pads", ["src/deepwave/common.py:extract_survey", "src/deepwave/scalar_born.py:scalar_born", "src/deepwave/acoustic.py:acoustic", "src/deepwave/elastic.py:elastic"])
p("survey_pad of acoustic and elastic is the same as cropping by hand",
  "If a call of acoustic or elastic with max_vel given succeeds, the call with the models cropped to the survey extents, the locations shifted and no survey_pad succeeds and gives the same wavefields, traces and callback values.",
  "all arguments accepted by the checks", "all models, locations and survey pads", ["src/deepwave/common.py:extract_survey", "src/deepwave/acoustic.py:acoustic", "src/deepwave/elastic.py:elastic"])
p("Sign of dt of scalar_born, acoustic and elastic",
  "The sign of dt has no effect on calls of scalar_born. Calls of acoustic and elastic with the opposite dt, opposite pressure source amplitudes and opposite initial velocities and velocity memory variables give the same pressures and stresses and the opposite velocities, in the final wavefields, in the traces and in the callbacks.",
  "all arguments accepted by the checks", "all models, amplitudes and wavefields", ["src/deepwave/common.py:setup_pml", "src/deepwave/common.py:cfl_condition_n", "src/deepwave/scalar_born.py:scalar_born", "src/deepwave/acoustic.py:acoustic", "src/deepwave/elastic.py:elastic"])
p("After the setup a call of scalar_born, acoustic or elastic either returns or fails for one of two reasons",
  "Once the checks of the arguments have passed, a call of scalar_born, acoustic or elastic raises ZeroDivisionError if model_gradient_sampling_interval is 0, raises ValueError if there are fewer internal time steps than step ratio times interval and no callback is given, and returns otherwise. All returned numbers are defined if pml_freq is positive or all PML widths are 0.",
  "all arguments accepted by the checks", "all combinations of numbers of steps, intervals and callbacks", ["src/deepwave/scalar_born.py:scalar_born", "src/deepwave/acoustic.py:acoustic", "src/deepwave/elastic.py:elastic", "src/deepwave/common.py:setup_propagator"])
p("A call of scalar solves the discretised wave equation in the coordinates of the model",
  "If a call of scalar passes its checks, the returned wavefields and traces are those of a solution of the second order wave equation with convolutional PML discretised on the cells of the model (between the extents plus the PML): finite differences of the chosen accuracy, velocity continued into the PML by its values at the edge, source amplitudes (upsampled) as the right hand side at the source cells, starting from the given wavefields; traces are the (downsampled) values at the receiver cells. With internal step ratio 1, no initial wavefields and an interval that divides the number of steps, the traces are the values of the unique solution that starts at zero.",
  "all arguments of scalar accepted by its checks", "all models, locations, accuracies, spacings, PML widths and numbers of steps", ["src/deepwave/scalar.py:scalar", "src/deepwave/common.py:setup_propagator", "src/deepwave/common.py:extract_survey", "src/deepwave/common.py:setup_pml", "src/deepwave/scalar.c:FUNC(forward)"])
p("A call of scalar_born solves the linearised discretised wave equation in the coordinates of the model",
  "If a call of scalar_born passes its checks, the background wavefield is a solution of the discretised wave equation and the scattered wavefield a solution of its derivative with respect to the velocity in the direction of the scattering potential: same operators, right hand side 2 v scatter dt^2 times (Laplacian of the background minus the source), the scattering potential continued by zero; both start from the given wavefields and the returned wavefields and traces are theirs.",
  "all arguments of scalar_born accepted by its checks", "all models, scattering potentials, locations, accuracies, spacings and PML widths", ["src/deepwave/scalar_born.py:scalar_born", "src/deepwave/common.py:setup_propagator", "src/deepwave/common.py:extract_survey", "src/deepwave/scalar_born.c:FUNC(forward)"])
p("A call of acoustic solves the discretised acoustic equations in the coordinates of the model",
  "If a call of acoustic passes its checks and its velocity locations have a half point after them, pressure and particle velocity are a solution of the first order acoustic system with convolutional PML on the staggered grid over the cells of the model: bulk modulus rho v^2 and inverse mean density at half points from the models continued by their values at the edge, pressure and velocity sources on the right hand side, starting from the given wavefields; the returned wavefields and the (downsampled) traces are those of this solution, which is unique.",
  "all arguments of acoustic accepted by its checks", "all models, locations, accuracies, spacings, PML widths and numbers of steps", ["src/deepwave/acoustic.py:acoustic", "src/deepwave/acoustic.py:prepare_models", "src/deepwave/common.py:setup_propagator", "src/deepwave/acoustic.c:FUNC(forward)"])
p("A call of elastic solves the discretised elastic equations in the coordinates of the model",
  "If a call of elastic passes its checks and its velocity locations have a half point after them, particle velocity and stress are a solution of the velocity-stress system with convolutional PML on the staggered grid over the cells of the model: Lame parameters continued by their values at the edge, harmonic mean of the shear modulus of the four cells around a shear stress point (zero if one is zero), inverse of the mean density at velocity points, force and pressure sources on the right hand side, starting from the given wavefields; the returned wavefields and traces are those of this solution, which is unique, with pressure minus the mean of the normal stresses.",
  "all arguments of elastic accepted by its checks", "all models, locations, accuracies, spacings, PML widths and numbers of steps", ["src/deepwave/elastic.py:elastic", "src/deepwave/elastic.py:prepare_parameters", "src/deepwave/common.py:setup_propagator", "src/deepwave/elastic.c:FUNC(forward)"])
p("The gradients of a call of scalar are the derivatives of its outputs",
  "If a call of scalar with max_vel given passes its checks, the time step is small enough for no internal substeps and the model gradient sampling interval is 1, then for any gradients of receiver amplitudes and final wavefields, backward() gives velocity, source amplitude and initial wavefield gradients whose pairing with any direction is the derivative of the outputs along that direction, velocity, amplitudes and wavefields changing together: including the dependence on the velocity of the scaling of the source amplitudes, the padding and cropping of the model and the sum over the shots that share it.",
  "all arguments of scalar accepted by its checks, all directions, all output gradients", "all models, locations, accuracies, spacings, PML widths and numbers of steps", ["src/deepwave/scalar.py:scalar", "src/deepwave/scalar.py:ScalarForwardFunc.backward", "src/deepwave/common.py:setup_propagator", "src/deepwave/common.py:extract_models", "src/deepwave/scalar.c:FUNC(backward)"])
p("The source and wavefield gradients of a call of scalar are exact for any time step",
  "If a call of scalar passes its checks, for any number of internal time steps per sample and any model gradient sampling interval, the change of the outputs (receiver amplitudes after downsampling and final wavefields) when source amplitudes (before upsampling) and initial wavefields change by any amount is exactly the pairing of the change with the gradients that backward() gives.",
  "all arguments of scalar accepted by its checks, all changes, all output gradients", "all models, time step ratios, locations, accuracies, spacings, PML widths and numbers of steps", ["src/deepwave/scalar.py:scalar", "src/deepwave/scalar.py:ScalarForwardFunc.backward", "src/deepwave/common.py:upsample", "src/deepwave/common.py:downsample", "src/deepwave/common.py:downsample_and_movedim"])
p("The gradients of a call of scalar_born are the derivatives of its outputs",
  "If a call of scalar_born with max_vel given passes its checks, the time step is small enough for no internal substeps and the model gradient sampling interval is 1, then for any gradients of background and scattered receiver amplitudes and final wavefields, backward() gives velocity, scattering potential, source amplitude and initial wavefield gradients whose pairing with any direction is the derivative of the outputs along that direction, everything that needs gradients changing together: including the scaling of the source amplitudes with velocity and scattering potential, the replicate padding of the one and zero padding of the other, and the sum over the shots.  This also holds when only the scattered part is propagated backwards because nothing in the background needs a gradient.",
  "all arguments of scalar_born accepted by its checks, all directions, all output gradients, all choices of what needs gradients", "all models, locations, accuracies, spacings, PML widths and numbers of steps", ["src/deepwave/scalar_born.py:scalar_born", "src/deepwave/scalar_born.py:ScalarBornForwardFunc.backward", "src/deepwave/common.py:setup_propagator", "src/deepwave/common.py:extract_models", "src/deepwave/scalar_born.c:FUNC(backward)"])
p("The source and wavefield gradients of a call of scalar_born are exact for any time step",
  "If a call of scalar_born passes its checks, for any number of internal time steps per sample and any model gradient sampling interval, the change of the outputs when source amplitudes and initial background and scattered wavefields change by any amount is exactly the pairing of the change with the gradients that backward() gives.",
  "all arguments of scalar_born accepted by its checks, all changes, all output gradients", "all models, time step ratios, locations, accuracies, spacings, PML widths and numbers of steps", ["src/deepwave/scalar_born.py:scalar_born", "src/deepwave/scalar_born.py:ScalarBornForwardFunc.backward", "src/deepwave/common.py:upsample", "src/deepwave/common.py:downsample_and_movedim"])
p("The gradients of a call of acoustic are the derivatives of its outputs",
  "If a call of acoustic with max_vel given passes its checks, the time step is small enough for no internal substeps, the model gradient sampling interval is 1, the model is not smaller than the stencil, and no mean of neighbouring densities is exactly the threshold below which the buoyancy is set to zero, then for any gradients of pressure and velocity receiver amplitudes and final wavefields, backward() gives velocity, density, source amplitude and initial wavefield gradients whose pairing with any direction is the derivative of the outputs along that direction, everything changing together: including bulk modulus and buoyancies as functions of velocity and density, the scaling of the source amplitudes with them, the padding, and the sum over the shots.",
  "all arguments of acoustic accepted by its checks, all directions, all output gradients", "all models, locations, accuracies, spacings, PML widths and numbers of steps", ["src/deepwave/acoustic.py:acoustic", "src/deepwave/acoustic.py:prepare_models", "src/deepwave/acoustic.py:AcousticForwardFunc.backward", "src/deepwave/common.py:setup_propagator", "src/deepwave/common.py:extract_models", "src/deepwave/acoustic.c:FUNC(backward)"])
p("The source and wavefield gradients of a call of acoustic are exact for any time step",
  "If a call of acoustic passes its checks and the model is not smaller than the stencil, for any number of internal time steps per sample and any model gradient sampling interval, the change of the outputs when pressure and velocity source amplitudes and initial wavefields change by any amount is exactly the pairing of the change with the gradients that backward() gives.",
  "all arguments of acoustic accepted by its checks, all changes, all output gradients", "all models, time step ratios, locations, accuracies, spacings, PML widths and numbers of steps", ["src/deepwave/acoustic.py:acoustic", "src/deepwave/acoustic.py:AcousticForwardFunc.backward", "src/deepwave/common.py:upsample", "src/deepwave/common.py:downsample_and_movedim"])
p("The gradients of a call of elastic are the derivatives of its outputs",
  "If a call of elastic with max_vel given passes its checks, the time step is small enough for no internal substeps and the model gradient sampling interval is 1, then for any gradients of the receiver amplitudes (pressure and all particle velocity components) and final wavefields, backward() gives gradients of lamb, mu, buoyancy, source amplitudes and initial wavefields whose pairing with any direction is the derivative of the outputs along that direction, everything that needs gradients changing together: including the harmonic means of mu and the buoyancies at the staggered points, the scaling of the source amplitudes with the buoyancy, the scaling of the pressure traces, replicate padding of the models and the sum over the shots.  The values that prepare_parameters compares with its threshold must not be equal to it, and the harmonic means must be finite.",
  "all arguments of elastic accepted by its checks, all directions, all output gradients, all choices of what needs gradients", "all models, locations, accuracies, spacings, PML widths and numbers of steps", ["src/deepwave/elastic.py:elastic", "src/deepwave/elastic.py:prepare_parameters", "src/deepwave/elastic.py:ElasticForwardFunc.backward", "src/deepwave/common.py:setup_propagator", "src/deepwave/common.py:extract_models", "src/deepwave/elastic.c:FUNC(backward)"])
p("The source and wavefield gradients of a call of elastic are exact for any time step",
  "If a call of elastic passes its checks, for any number of internal time steps per sample and any model gradient sampling interval, the change of the outputs when source amplitudes and initial wavefields change by any amount is exactly the pairing of the change with the gradients that backward() gives.",
  "all arguments of elastic accepted by its checks, all changes, all output gradients", "all models, time step ratios, locations, accuracies, spacings, PML widths and numbers of steps", ["src/deepwave/elastic.py:elastic", "src/deepwave/elastic.py:ElasticForwardFunc.backward", "src/deepwave/common.py:upsample", "src/deepwave/common.py:downsample_and_movedim"])
p("scalar_born returns the derivative of what scalar returns",
  "Call scalar_born with velocity v, scattering potential scatter and max_vel given, and scalar with velocity v + e * scatter and the same options, sources and receivers (initial wavefields: the background ones plus e times the scattered ones).  If both pass their checks and use the same part of the model, and scatter is zero on the edge of that part, then scalar returns for every e, and at e = 0 the derivative of every sample of its receiver amplitudes and of every element of its final wavefields is the corresponding output of scalar_born; the background outputs of scalar_born are those of scalar.",
  "all arguments accepted by the checks, any step ratio, any broadcasting between v and scatter, any of the initial wavefields missing", "all models, locations, accuracies, spacings, PML widths and numbers of steps, and a derivative", ["src/deepwave/scalar_born.py:scalar_born", "src/deepwave/scalar.py:scalar", "src/deepwave/common.py:setup_propagator", "src/deepwave/scalar_born.c:FUNC(forward)"])
p("Superposition for calls of scalar_born, acoustic and elastic",
  "If a call of scalar_born, acoustic or elastic passes the checks, then the call with a linear combination of two sets of values for all the given source amplitudes and initial wavefields is accepted as well, and its final wavefields and receiver amplitudes (scattered and background; pressure and particle velocities) are the linear combination of those of the two calls.",
  "all arguments accepted by the checks, any step ratio, any of the amplitudes and wavefields missing", "all models, locations, values and real coefficients", ["src/deepwave/scalar_born.py:scalar_born", "src/deepwave/acoustic.py:acoustic", "src/deepwave/elastic.py:elastic", "src/deepwave/common.py:upsample", "src/deepwave/common.py:downsample_and_movedim"])
p("Stop and resume for calls of scalar_born, acoustic and elastic",
  "A call of scalar_born, acoustic or elastic whose time step needs no internal substeps can be made in two parts: a call with the first n1 samples of all source amplitudes (or nt = n1) and, with all the wavefields that it returns as initial wavefields and otherwise the same arguments, one with the other n2 samples (n1 and n2 multiples of the model gradient sampling interval).  Both are accepted, the second returns the final wavefields of the single call, and the receiver amplitudes are those of the single call cut after n1 samples.",
  "all arguments accepted by the checks with step ratio one, all n1 and n2", "all models, locations, PML widths and numbers of steps", ["src/deepwave/scalar_born.py:scalar_born", "src/deepwave/acoustic.py:acoustic", "src/deepwave/elastic.py:elastic", "src/deepwave/common.py:prepare_wavefields", "src/deepwave/common.py:create_or_pad"])
p("elastic with zero shear modulus is acoustic",
  "If elastic is called for a fluid (first Lame parameter rho v^2, second one zero, buoyancy 1/rho) and acoustic for the same fluid, with the same locations and options, the amplitudes of the pressure sources of elastic being those of acoustic times the bulk modulus at their locations, then the recorded particle velocities and pressures are equal, the returned normal stresses are all minus the returned pressure and the shear stresses are zero.",
  "all fluids, sources, receivers, wavefields and PML widths for which both calls pass the checks", "all models, numbers of steps and dimensions; two independent implementations are compared", ["src/deepwave/elastic.py:elastic", "src/deepwave/acoustic.py:acoustic", "src/deepwave/elastic.py:prepare_parameters", "src/deepwave/acoustic.py:prepare_models"])
p("calls that pass the checks never blow up",
  "If the time step is at most the limit that the CFL check computes from the maximum velocity, there is no PML and the source amplitudes vanish from some sample on, then there is one bound that holds for the returned wavefields and the receiver data of the same call with any number of time samples.",
  "all dimensions, accuracies, shapes, velocities, sources, receivers and numbers of time samples for which a call of scalar, acoustic or elastic without PML and without internal substeps passes the checks; contrasts of density (acoustic) at most ten within the stencil, for elastic stiffness below the maximum velocity, also with fluids and vacuum", "unbounded numbers of time samples and all models", ["src/deepwave/common.py:cfl_condition_n", "src/deepwave/scalar.py:scalar", "src/deepwave/acoustic.py:acoustic", "src/deepwave/elastic.py:elastic"])
p("calls do not depend on the backend",
  "A call returns the same final wavefields and the same receiver data, and calls the callback at the same steps with the same wavefields, whether the shots are propagated by any number of OpenMP threads in any order, by a CUDA device with any order of the threads of its kernels, by the Python backend, or one by one.",
  "all dimensions, accuracies, models (shared or per shot), numbers of shots, sources, receivers, wavefields and time samples for which a call of scalar, scalar_born, acoustic or elastic passes the checks; all executions of the parallel loops and all orders of the CUDA threads", "all schedules of threads, and there is no GPU in the test environment", ["src/deepwave/scalar.py:scalar", "src/deepwave/scalar_born.py:scalar_born", "src/deepwave/acoustic.py:acoustic", "src/deepwave/elastic.py:elastic", "src/deepwave/scalar.cu:forward", "src/deepwave/acoustic.cu:forward", "src/deepwave/elastic.cu:forward"])
p("the propagator classes give what the functions give",
  "Creating a propagator object (Scalar, ScalarBorn, Acoustic, Elastic) and calling it enters the propagator function with exactly the parameter values of the direct call of the function with the arguments that the user gave, whichever they give by position, by keyword or not at all; the object is refused exactly if the arguments do not fit the parameters or a model or flag has the wrong type.",
  "all values and all combinations of positional, keyword and omitted arguments", "exponentially many combinations of arguments given, among more than sixty parameters", ["src/deepwave/scalar.py:Scalar", "src/deepwave/scalar_born.py:ScalarBorn", "src/deepwave/acoustic.py:Acoustic", "src/deepwave/elastic.py:Elastic"])
p("the compiled function for the arguments of the call is selected",
  "For each propagator, direction, number of dimensions, accuracy, type and device the function that Python looks up exists, was compiled from the source of that propagator with these constants, and has been declared with the types of its parameters; other types are refused with TypeError and a CUDA device without CUDA build with AttributeError.",
  "all propagators, directions, dimensions, accuracies, types and devices, builds with and without CUDA", "tests run one build, mostly 2D and accuracy 4, without GPU", ["src/deepwave/backend_utils.py:get_backend_function", "src/deepwave/backend_utils.py:_assign_argtypes", "CMakeLists.txt"])
p("gradients of a call do not depend on the backend",
  "backward() after an accepted call with any number of shots leaves the same gradients of source amplitudes, initial wavefields and models (summed over the shots that share a model) whether forward and backward pass run on the CPU with any number of threads, or on a CUDA device, in whichever order the threads run, as when each shot is propagated alone; with a backward callback, models must be given per shot or there must be one thread (C06).",
  "all arguments, numbers of shots, threads, thread orders, models shared or per shot, for scalar, scalar_born, acoustic and elastic", "rounding hides differences and tests do not control the order of threads", ["src/deepwave/scalar.py:ScalarBackwardFunc", "src/deepwave/scalar_born.py:ScalarBornForwardFunc", "src/deepwave/acoustic.py:AcousticForwardFunc", "src/deepwave/elastic.py:ElasticForwardFunc"])
p("reciprocity of calls of acoustic, elastic and scalar_born",
  "In a call without PML and without initial wavefields that has one source and one receiver, the two may change places: the exchanged call is accepted as well, and its receiver records the same trace if both are pressures (acoustic), if each is any component of the particle velocity (acoustic, elastic), or if the scattered field is recorded (scalar_born). Pressure traces of elastic are proportional to the bulk modulus at the receiver; between pressure and velocity, without internal substeps, the traces differ by sign and one sample, and in elastic by the bulk modulus at the pressure source.",
  "all models, sizes, spacings, time steps, accuracies, positions, wavelets, numbers of samples and step ratios", "tests compare a few pairs of positions in small models up to a tolerance", ["src/deepwave/acoustic.py:acoustic", "src/deepwave/elastic.py:elastic", "src/deepwave/scalar_born.py:scalar_born", "src/deepwave/common.py:setup_propagator"])
p("batched tensors are refused",
  "A propagator called inside torch.vmap with any of its tensor arguments batched (a velocity or other model, amplitudes, locations or an initial wavefield) raises NotImplementedError before anything else, and without a batched argument it never does so because of batching. False for elastic, which leaves sigmaxx_0 out of the check.",
  "all combinations of given, missing and batched tensor arguments", "tests batch a handful of arguments", ["src/deepwave/common.py:check_inputs_not_vmapped", "src/deepwave/scalar.py:scalar", "src/deepwave/scalar_born.py:scalar_born", "src/deepwave/acoustic.py:acoustic", "src/deepwave/elastic.py:elastic"])
p("the number of dimensions is found from any tensor argument",
  "Every tensor argument that has a shape depending on the number of dimensions (models, locations, wavefields, and the wavefields and locations of one axis only) is compared with all others: the call goes on exactly if all that are given agree with one number of dimensions, and a single one of them is enough to find it. False for elastic, which leaves sigmaxx_0 out.",
  "all combinations of given tensors and of their ranks", "tests try a few inconsistent ranks", ["src/deepwave/common.py:get_ndim", "src/deepwave/acoustic.py:acoustic", "src/deepwave/elastic.py:elastic"])
p("no tensor argument is silently ignored",
  "A call that gets past the checks of its tensor arguments uses each of those given: tensors that belong to an axis that the call does not have are rejected. True for scalar and scalar_born; acoustic and elastic ignore source amplitudes of such an axis.",
  "all combinations of given tensors, of their ranks and of the number of dimensions", "tests pass the arguments that a call uses", ["src/deepwave/acoustic.py:acoustic", "src/deepwave/elastic.py:elastic", "src/deepwave/scalar.py:scalar", "src/deepwave/scalar_born.py:scalar_born"])
p("warnings of a call",
  "The setup of a call issues each warning exactly if what it says is the case: pml_freq not given, or above the Nyquist frequency of the internal steps; fewer than six cells of some axis in the shortest wavelength at pml_freq; a max_vel below that of the model; twenty or more internal steps per sample; a survey inferred from wavefields without origin. Accordingly a call without warnings is stable (Courant number at most 0.6) at every velocity of the model, and every velocity that is not zero is resolved with six cells per wavelength along all axes.",
  "all calls, models, spacings, time steps, frequencies and maximum velocities", "tests check that single examples warn or do not warn", ["src/deepwave/common.py:setup_propagator", "src/deepwave/common.py:check_points_per_wavelength", "src/deepwave/common.py:set_pml_freq", "src/deepwave/common.py:set_max_vel", "src/deepwave/common.py:cfl_condition_n", "src/deepwave/elastic.py:elastic"])
p("every input of a propagator gets its own gradient",
  "Between a call of a propagator and PyTorch, the inputs are passed as one flat list, saved, unpacked by counting, and the gradients returned as one flat list with None for everything that is not differentiated. For every number of dimensions, every option and whatever the numerical work computes, the work gets each input and each gradient of an output under its own name, and PyTorch takes each gradient that it computes as that of the input it belongs to; also when the backward pass of scalar is itself differentiated. In scalar_born, gradients of the background inputs are left out exactly if none of them needs one.",
  "all inputs, options, numbers of dimensions and numerical results, and all choices of inputs that need gradients", "a wrong position shows only for the input it hits, in the dimension and mode tested", ["src/deepwave/scalar.py:ScalarForwardFunc", "src/deepwave/scalar.py:ScalarBackwardFunc", "src/deepwave/scalar_born.py:ScalarBornForwardFunc", "src/deepwave/acoustic.py:AcousticForwardFunc", "src/deepwave/elastic.py:ElasticForwardFunc"])
p("callbacks of scalar, scalar_born and acoustic show every quantity under its own name",
  "In forward callbacks of both backends and in backward callbacks, each wavefield (or its gradient) is found under the name of the argument of the propagator through which it is given, each model and its gradient under its own name, and there are no other entries; a backward callback of scalar_born without gradients of the background shows those of the scattered field.",
  "one, two and three dimensions, all wavefields and models", "tests look at one or two names", ["src/deepwave/scalar.py:ScalarForwardFunc.forward", "src/deepwave/scalar.py:ScalarBackwardFunc.forward", "src/deepwave/scalar.py:scalar_python", "src/deepwave/scalar_born.py:ScalarBornForwardFunc", "src/deepwave/scalar_born.py:scalar_born_python", "src/deepwave/acoustic.py:AcousticForwardFunc", "src/deepwave/acoustic.py:acoustic_python"])
p("the backend asked for is used and refuses what it does not support",
  "A call runs the compiled backend or the variant of the Python step functions that its own python_backend asks for, whatever calls were made before in the process, and is refused if python_backend asks for none. The compiled backends store snapshots where storage_mode says and refuse unknown names. The Python backends refuse a backward callback, a storage mode and storage compression, none of which they implement; false for acoustic, which takes storage_compression and ignores it.",
  "all histories of calls, all values of python_backend and of the options", "tests run one variant after import", ["src/deepwave/scalar.py:scalar_func", "src/deepwave/scalar_born.py:scalar_born_func", "src/deepwave/acoustic.py:acoustic_func", "src/deepwave/elastic.py:elastic_func", "src/deepwave/acoustic.py:acoustic_python"])
p("the order of sources and receivers, and ignored ones, do not matter",
  "Permuting the sources of a call (with their amplitudes) or its receivers, separately for each shot, and inserting or removing entries equal to IGNORE_LOCATION with any amplitudes, changes nothing: the call is accepted, returns the same final wavefields, the trace of each receiver at its new index, and zero traces for ignored receivers.",
  "all accepted calls of scalar, scalar_born, acoustic and elastic, all rearrangements", "tests use one order and rarely IGNORE_LOCATION", ["src/deepwave/common.py:extract_survey", "src/deepwave/common.py:extract_locations", "src/deepwave/common.py:setup_propagator", "src/deepwave/scalar.c:forward", "src/deepwave/acoustic.py:acoustic", "src/deepwave/elastic.py:elastic"])
p("observing a call does not change its results",
  "The final wavefields and receiver traces returned by a call do not depend on whether a forward callback is given, on callback_frequency, or on which models require gradients.",
  "all accepted calls of scalar, scalar_born, acoustic and elastic", "tests compare one callback frequency; requires_grad selects other compiled code", ["src/deepwave/scalar.py:scalar", "src/deepwave/scalar_born.py:scalar_born", "src/deepwave/acoustic.py:acoustic", "src/deepwave/elastic.py:elastic"])
p("stored is loaded on the GPU in every storage mode",
  "In the CUDA implementation, with snapshots kept in device memory, in pinned host memory or in files, in one or two device buffers, compressed or not, every snapshot that the backward pass uses is the one the forward pass saved at that step (after one compression, if compression is on; the same values as on the CPU), for all shots and all time steps of a chunked forward and backward run, and all copies stay within the allocated buffers.",
  "all sizes, shots, step ratios, chunkings, storage modes, and all schedules of threads within kernels", "wrong offsets show only with several shots, odd steps or large runs; no GPU in most test runs", ["src/deepwave/storage_utils.cu:save_snapshot_gpu", "src/deepwave/storage_utils.cu:load_snapshot_gpu", "src/deepwave/scalar.cu:forward", "src/deepwave/scalar.cu:backward", "src/deepwave/common.py:StorageManager.allocate"])
p("temporary files of a call are its own, start empty and are removed",
  "Each store of temporary files has files of its own: whatever other stores (of this or other processes, with the same base path or not) and other programs do meanwhile, each file starts empty, contains what this store wrote to it in this order and nothing else, and after close (explicit or by the destructor, once or several times) neither its directory nor its files exist; nothing else in the file system changes.",
  "all interleavings of creation, writing and removal of any number of stores of any number of processes", "depends on interleavings of processes and leftovers", ["src/deepwave/common.py:TemporaryStorage", "src/deepwave/common.py:TemporaryStorage.close", "src/deepwave/scalar.c:forward"])
p("delayed sources give delayed records",
  "For calls without internal time steps that start at rest: if every source amplitude tensor starts with m more zero samples (m a multiple of model_gradient_sampling_interval), the call is accepted again, every trace starts with m more zeros and is otherwise the same, and the returned wavefields are the same.",
  "all four propagators, all models, amplitudes, delays, options", "all wavelets and delays; off-by-one errors of time indices, chunks or snapshots break it only for some", ["src/deepwave/scalar.py:scalar", "src/deepwave/scalar_born.py:scalar_born", "src/deepwave/acoustic.py:acoustic", "src/deepwave/elastic.py:elastic", "src/deepwave/common.py:set_nt"])
p("records do not depend on later source samples",
  "For calls without internal time steps: the samples of the traces up to T are the same for any two calls whose source amplitudes agree before sample T, whatever the amplitudes from T on are and however many samples each call has.",
  "all four propagators, all models, amplitudes, initial wavefields, lengths, options", "all wavelets and lengths", ["src/deepwave/scalar.py:scalar", "src/deepwave/scalar_born.py:scalar_born", "src/deepwave/acoustic.py:acoustic", "src/deepwave/elastic.py:elastic", "src/deepwave/common.py:set_nt"])
p("the order of the axes does not matter",
  "Permuting the axes of a whole call (axes of the models and of the wavefields, coordinates of the locations, entries of grid_spacing, pml_width, survey_pad and origin, velocity and stress components with their sources and receivers) gives a call that is accepted as well, records the same traces (component sigma(k) as component k), and returns the same wavefields with their axes and components permuted.",
  "all four propagators, all permutations, all dimensions, models, options", "all models and permutations; per-axis code that is written out three times goes wrong for one axis only", ["src/deepwave/scalar.py:scalar", "src/deepwave/scalar_born.py:scalar_born", "src/deepwave/acoustic.py:acoustic", "src/deepwave/elastic.py:elastic", "src/deepwave/common.py:setup_propagator"])
p("Traces only depend on what is near the receiver",
  "If two calls with the same max_vel differ only in the values of the models and of the source amplitudes, and these agree within n cells of a receiver (along every axis), then the samples of its trace agree up to sample t whenever n >= t * accuracy / 2 (scalar, scalar_born) or n >= t * accuracy (acoustic, elastic). With internal time steps whole traces agree if n is large enough for all time steps.",
  "all four propagators, all models, amplitudes, receivers, times, accuracies, dimensions", "all models; one stencil or memory variable that reads one cell too far is not visible in the results", ["src/deepwave/scalar.py:scalar", "src/deepwave/scalar_born.py:scalar_born", "src/deepwave/acoustic.py:acoustic", "src/deepwave/elastic.py:elastic"])
p("The edges of the model are not noticed before waves return from them",
  "If sources are at least T1 * accuracy / 2 cells and a receiver at least T2 * accuracy / 2 cells away from the edges of the computational domain (accuracy instead of accuracy / 2 for acoustic and elastic) and there are no initial wavefields, then the samples of the receiver up to T1 + T2 do not depend on pml_width, pml_freq and survey_pad.",
  "all four propagators, all models, sources, receivers, widths, frequencies, paddings, times, accuracies, dimensions", "all geometries; tests compare a few with a tolerance", ["src/deepwave/scalar.py:scalar", "src/deepwave/scalar_born.py:scalar_born", "src/deepwave/acoustic.py:acoustic", "src/deepwave/elastic.py:elastic", "src/deepwave/common.py:setup_propagator"])
p("Scattered waves are linear in the scattering potential",
  "The scattered wavefields and scattered traces of scalar_born are linear in the scattering potential and the initial scattered wavefields taken together; the background wavefields and traces do not depend on them.",
  "all velocities, potentials, initial wavefields, sources, receivers, options, shots, coefficients, dimensions", "linear combinations of all potentials; tests compare a few with a tolerance", ["src/deepwave/scalar_born.py:scalar_born", "src/deepwave/scalar_born.c"])
p("Waves in a mirror",
  "A call of a propagator without survey_pad and initial wavefields, in which the models, the locations and the entries of pml_width are reversed along some axes, is accepted, returns the same traces and the reversed wavefields; only the memory variable psi of the reversed axes changes its sign. For acoustic and elastic the velocities along a reversed axis, and their amplitudes, change sign and are located at the mirror images of the points between the cells, and stresses and memory variables change sign with every index that is a reversed axis.",
  "all models, whole locations, widths, options, shots, sets of axes, dimensions", "every geometry and combination of axes; a wrong sign or an offset by one cell at one edge shows only in particular models", ["src/deepwave/scalar.py:scalar", "src/deepwave/scalar_born.py:scalar_born", "src/deepwave/acoustic.py:acoustic", "src/deepwave/elastic.py:elastic", "src/deepwave/common.py:setup_propagator", "src/deepwave/regular_grid.py:set_pml_profiles", "src/deepwave/staggered_grid.py:set_pml_profiles"])
p("What the callback of a call sees",
  "The forward callback of a call is called exactly at the outer steps that are multiples of callback_frequency, once each and in order, and get_wavefield returns for the views inner and pml the fields of the finite-difference scheme of that call at that time: inner has the shape of the survey extent and starts at its first cell, pml starts at the first cell of the PML.",
  "all models, locations, initial wavefields, options, shots, callback frequencies, dimensions, four propagators", "every step, cell, frequency and PML width; tests look at few steps and mostly at shapes", ["src/deepwave/common.py:CallbackState", "src/deepwave/scalar.py:ScalarForwardFunc", "src/deepwave/scalar_born.py:ScalarBornForwardFunc", "src/deepwave/acoustic.py:AcousticForwardFunc", "src/deepwave/elastic.py:ElasticForwardFunc"])
p("Time reversal without PML",
  "Without a PML and with an internal time step equal to dt, a call of scalar or scalar_born started from the final wavefields of an earlier call, with wavefield_0 and wavefield_m1 exchanged and the source amplitudes in reverse order, returns the initial wavefields of that call exchanged, and receiver amplitudes in reverse order: no information is lost in the steps.",
  "all models, locations, amplitudes, initial wavefields, accuracies, shots, numbers of steps, dimensions, two propagators", "exact statement on every cell and sample; tests in floating point only see approximate reversal in few cases", ["src/deepwave/scalar.py:scalar", "src/deepwave/scalar.c:forward_kernel", "src/deepwave/scalar_born.py:scalar_born", "src/deepwave/scalar_born.c:forward_kernel"])
p("A model and its copies for every shot give the same results",
  "For every shot of a call of scalar, scalar_born, acoustic or elastic only the values of the models for that shot matter: giving a model without batch dimension (or of batch size one) as one copy for each shot, or the other way round, for any choice of the models of the call, changes neither receiver amplitudes nor final wavefields nor what callbacks see.",
  "all models and choices of batch dimensions, locations, amplitudes, initial wavefields, options, shots, dimensions, four propagators", "every combination of batch dimensions for every number of shots; tests compare few", ["src/deepwave/common.py:extract_models", "src/deepwave/common.py:setup_propagator", "src/deepwave/scalar.py:scalar", "src/deepwave/scalar_born.py:scalar_born", "src/deepwave/acoustic.py:acoustic", "src/deepwave/elastic.py:elastic"])
p("Multiplying all lengths and times by the same number changes only the units",
  "When grid spacing and time step of a call of scalar, scalar_born, acoustic or elastic are multiplied by the same positive number q, pml_freq is divided by q, source amplitudes are multiplied by 1/q^2 (scalar, scalar_born) or 1/q (acoustic, elastic) and the given memory variables of the PML are multiplied by the power of 1/q of their units, then the call uses the same number of internal time steps and the same cells, receiver amplitudes and the final fields are the same numbers, and the final memory variables are multiplied by the same power of 1/q.",
  "all positive rational factors, models, grid spacings, time steps, amplitudes, locations, initial wavefields, options, shots, dimensions, four propagators", "two calls compared for every factor and every input", ["src/deepwave/common.py:cfl_condition_n", "src/deepwave/common.py:set_grid_spacing", "src/deepwave/regular_grid.py:set_pml_profiles", "src/deepwave/staggered_grid.py:set_pml_profiles", "src/deepwave/scalar.py:scalar", "src/deepwave/scalar_born.py:scalar_born", "src/deepwave/acoustic.py:acoustic", "src/deepwave/elastic.py:elastic"])
p("Traces are convolutions with responses to pulses",
  "For calls of scalar, scalar_born, acoustic and elastic that start with zero wavefields and make one internal step per time sample, sample t of every receiver trace is the sum, over all sources (of all source types) and all earlier samples tau < t, of sample tau of the source amplitude times sample t - tau of the trace that the same call gives when the amplitudes are a single 1 in the first sample of that source.",
  "all models, amplitudes, source and receiver locations, options, numbers of samples, shots, dimensions, four propagators", "an identity between one call and as many calls as there are sources, for all amplitudes", ["src/deepwave/scalar.py:scalar", "src/deepwave/scalar_born.py:scalar_born", "src/deepwave/acoustic.py:acoustic", "src/deepwave/elastic.py:elastic", "src/deepwave/scalar.c:forward"])
p("It does not matter where in the model an experiment takes place",
  "For calls of scalar, scalar_born, acoustic and elastic that start with zero wavefields: if sources and receivers of a shot are moved by the same number of cells, and the models around them are moved with them, all samples that waves via the edges of the model or the PML cannot have reached are the same, whatever the sizes of the models, pml_width, pml_freq and survey_pad of the two calls (or shots of one call) are, as long as the velocity used for the time step is the same.",
  "all displacements, models, source and receiver locations, PML widths, survey pads, shots, dimensions, four propagators", "a relation between calls with different models, for all displacements and for exact equality", ["src/deepwave/scalar.py:scalar", "src/deepwave/scalar_born.py:scalar_born", "src/deepwave/acoustic.py:acoustic", "src/deepwave/elastic.py:elastic", "src/deepwave/common.py:setup_propagator"])
p("The sign of the velocity does not matter",
  "If the velocity of a call of scalar, scalar_born or acoustic is replaced by one with the same absolute values, all traces and final wavefields stay the same; for scalar_born the scattering potential has to change its sign where the velocity does, so that their product stays the same.",
  "all velocities, sign patterns, sources, receivers, initial wavefields, shots, dimensions, three propagators", "a relation between calls for all sign patterns, exact equality", ["src/deepwave/scalar.py:scalar", "src/deepwave/scalar_born.py:scalar_born", "src/deepwave/acoustic.py:acoustic"])
p("A factor of the density only changes pressures and stresses",
  "If the density of a call of acoustic and its force amplitudes are multiplied by a positive number (elastic: density, both moduli and all amplitudes), together with the pressures, stresses and their memory variables in the initial wavefields, the particle velocities do not change and the pressures and stresses are multiplied by this number, in traces and final wavefields; densities, their inverses and shear moduli may not cross the threshold below which inverses are replaced by zero.",
  "all positive factors, models above the threshold, sources, receivers, initial wavefields, shots, dimensions", "a relation between calls for all factors and models, exact in real arithmetic", ["src/deepwave/acoustic.py:acoustic", "src/deepwave/elastic.py:elastic", "src/deepwave/elastic.py:prepare_parameters", "src/deepwave/acoustic.py:prepare_models"])
p("Without PML, max_vel and pml_freq only matter through the internal time step",
  "If all PML widths of a call are zero, another max_vel and another pml_freq give exactly the same traces and final wavefields, as long as the number of internal time steps per time step is the same.",
  "all max_vel and pml_freq that are accepted, models, sources, receivers, initial wavefields, shots, dimensions, four propagators", "a relation between calls for all values of two arguments, exact equality", ["src/deepwave/common.py:set_max_vel", "src/deepwave/common.py:set_pml_freq", "src/deepwave/common.py:cfl_condition_n", "src/deepwave/regular_grid.py:setup_pml", "src/deepwave/staggered_grid.py:setup_pml"])
p("Dot product test",
  "For a call of a propagator and any gradients given to its backward pass, the sum of the products of outputs (traces and final wavefields) and given gradients is the sum of the products of the source amplitudes and initial wavefields with their gradients: the backward pass is the exact adjoint of the forward pass, for any time step, resampling, PML, survey and initial wavefields (scalar_born: if all gradients are computed).",
  "all calls that pass the checks with locations in whole cells, all given gradients, shots, dimensions, four propagators", "an exact identity for all inputs and all given gradients at once", ["src/deepwave/scalar.py:ScalarForwardFunc", "src/deepwave/scalar_born.py:ScalarBornForwardFunc", "src/deepwave/acoustic.py:AcousticForwardFunc", "src/deepwave/elastic.py:ElasticForwardFunc"])
p("Gradients of models are zero where the receivers do not see",
  "If max_vel is given, samples are not resampled, every step is stored, and the gradients given for the traces are zero after sample T (and none are given for final wavefields), then the gradient of each model is exactly zero in every cell that is farther from all receivers of all shots than T times half the accuracy (acoustic and elastic: twice that), in some dimension.",
  "all calls that pass the checks, all given gradients, T, cells, models of the four propagators, dimensions", "an exact zero for all models, surveys and given gradients; tests look at a few gradients", ["src/deepwave/scalar.py:ScalarForwardFunc", "src/deepwave/scalar_born.py:ScalarBornForwardFunc", "src/deepwave/acoustic.py:AcousticForwardFunc", "src/deepwave/elastic.py:ElasticForwardFunc"])
p("Gradients are linear in the given gradients",
  "The gradients that a backward pass computes for source amplitudes, initial wavefields and models, from the sum of some gradients of the outputs and a multiple of others, are the sum of those from the first and the multiple of those from the others. For source amplitudes and initial wavefields with any time step; for models if max_vel is given, samples are not resampled and every step is stored. Gradients of initial wavefields are compared in their products with all changes of the wavefields that were given.",
  "all calls that pass the checks, all given gradients and factors, cells, shots, four propagators, dimensions", "an exact identity for all given gradients", ["src/deepwave/scalar.py:ScalarForwardFunc", "src/deepwave/scalar_born.py:ScalarBornForwardFunc", "src/deepwave/acoustic.py:AcousticForwardFunc", "src/deepwave/elastic.py:ElasticForwardFunc"])
p("Gradients of source samples are zero from the last used sample of the traces on",
  "If the gradients given for the traces are zero after sample T and none are given for the final wavefields, the gradients of all source amplitudes are zero for sample T and all later ones. For calls without internal time steps; wavefields may be given at the start, and not every step needs to be stored.",
  "all calls that pass the checks with step ratio 1, all given gradients, samples T, shots, sources, four propagators, dimensions", "an exact identity for all given gradients and lengths", ["src/deepwave/scalar.py:ScalarForwardFunc", "src/deepwave/scalar_born.py:ScalarBornForwardFunc", "src/deepwave/acoustic.py:AcousticForwardFunc", "src/deepwave/elastic.py:ElasticForwardFunc"])
p("Gradients of sources that no receiver sees are zero",
  "If the gradients given for the traces are zero after sample T and none are given for the final wavefields, the gradients of the amplitudes of a source that is ignored, or that is along some axis more than T times half the accuracy away from every receiver that is not ignored, are zero in all samples (T times the accuracy for acoustic and elastic). For calls without internal time steps.",
  "all calls that pass the checks with step ratio 1, all given gradients, samples T, shots, sources, four propagators, dimensions", "an exact identity for all given gradients and placements", ["src/deepwave/scalar.py:ScalarForwardFunc", "src/deepwave/scalar_born.py:ScalarBornForwardFunc", "src/deepwave/acoustic.py:AcousticForwardFunc", "src/deepwave/elastic.py:ElasticForwardFunc"])
p("Gradients of models only depend on source samples before the last used trace sample",
  "If the gradients given for the traces are zero after sample T and none are given for the final wavefields, the gradients of the models are the same for all calls that have the same source samples before T and more than T time samples, whatever the later source samples are and however many samples there are. For calls without internal time steps, with model_gradient_sampling_interval 1, max_vel given, and models away from the kinks of the conversions.",
  "all calls that pass the checks with step ratio 1, all given gradients, samples T, later source samples, lengths, models, cells, four propagators, dimensions", "an exact identity for all given gradients and continuations", ["src/deepwave/scalar.py:ScalarForwardFunc", "src/deepwave/scalar_born.py:ScalarBornForwardFunc", "src/deepwave/acoustic.py:AcousticForwardFunc", "src/deepwave/elastic.py:ElasticForwardFunc"])
with open("/verif/properties.jsonl","w") as f:
    for x in P: f.write(json.dumps(x)+"\n")
print(len(P))
