# Formal model of deepwave: design

## What is modelled and how

The model is a set of small total Lean functions that mirror the Python and C
functions of `/repo/src/deepwave` branch by branch. Every definition that models
code carries a comment with the file and lines. Three layers are used for the
propagators:

1. **Kernel**: the body of the innermost C loop for one cell, with the region
   case distinction (`pml_x == 1` or not), executed as an in-place fold over the
   list of visited (region, cell) pairs.
2. **C function**: the time loop of the exported C function for one shot, with
   ping-pong buffers chosen by the parity of `t - start_t`, snapshots, source
   injection and receiver recording.
3. **Python driver**: the chunk loop of `ScalarForwardFunc.forward` /
   `ScalarBackwardFunc.forward` (callback frequency, buffer swaps, output slices).

Property statements are in `Verif/Props/*.lean`, with the specifications they use.
Specifications do not use layers 1-3: they are written with plain functions on cells,
sums over cells and recursion over time steps.

Arrays are total functions from cells (`Fin d → ℤ`) to a field of scalars. That
flat C-order indices of cells are in bounds and distinct is a separate theorem
(C15, C23). Dimension `d` is arbitrary, which covers 1D, 2D and 3D. The C code
is three textual copies of the same statements (`#if DW_NDIM >= 2` ...) and
adds the dimensions in the order z, y, x; the model sums over `Fin d`.

### Modules

| directory | code modelled |
|-----------|---------------|
| `Core` | exceptions, in-place loops, stencil tables, staggered differences, flat indices, generic chunk drivers (compiled and Python backend), regions of the staggered kernels |
| `Scalar` | scalar.c, scalar.py (forward, backward, Python backend), shot loops with threads (`Shots`), flat-index accesses (`Flat`) |
| `Born` | scalar_born.c, scalar_born.py, scalar.py 1344-1877 (double backward, `Double`) |
| `Acoustic` | acoustic.c, acoustic.py |
| `Elastic` | elastic.c, elastic.py |
| `Setup` | cfl, PML profiles, survey extraction, validators, conversions, wavelets |
| `Storage` | storage_utils.c, simple_compress.c, StorageManager |
| `Hicks` | location_interpolation.py |
| `Resample` | upsample, downsample and their tapers (rfft, irfft, hann_window by their documented formulas) |
| `Gpu` | streams and events, order of the commands of the CUDA functions (`Stream`, `Snapshots`, `Races`, `InOrder`); threads of a launch (`Kernel`), scalar kernels and drivers (`Scalar`), drivers for any propagator (`Batch`), acoustic, elastic and Born kernels (`Acoustic`, `Elastic`, `Born`) |
| `Interface` | backend_utils.py, the call sites, parameter lists of the C and CUDA functions (generated by `tools/csig.py`), index and name tables of elastic.py, propagator classes (`Module`), selection of compiled functions (`Selection`), checks of the tensor arguments (`Guards`), argument lists of the autograd functions (`Autograd`), callback dictionaries (`Callbacks`), choice of the backend (`Backends`) |

Shots run as arbitrary interleavings of per-shot steps over a shared state (`Sched`), with
the gradient buffers indexed by thread; theorems about shots quantify over all
interleavings and all assignments of shots to threads.

`tools/seed.py` applies a list of edits to a copy of the model, rebuilds, and records which
theorems fail (`seeded/LOG.jsonl`). `tools/props.py`, `tools/manifest.py` and
`tools/imports.py` write properties.jsonl, MANIFEST.json and Verif.lean.

## Trusted base

* Lean 4 kernel, and the axioms `propext`, `Classical.choice`, `Quot.sound` (the
  only ones reported by `#print axioms` for the listed theorems).
* Scalars are elements of a field (or ℝ): floating-point rounding, overflow and
  NaN are not modelled, except where a statement is about a division by zero.
* PyTorch tensor operations (slicing, pad, gather, scatter_add, autograd chain rule
  outside the custom Functions) are modelled by their documented meaning.
* The C compiler, OpenMP runtime and ctypes; absence of aliasing promised by
  `restrict` follows from separate torch allocations and is assumed.
* CUDA: the meaning of streams and events (`Gpu/Stream.lean`, `Exec`). The order of the commands
  of the exported functions and the kernels are modelled for all propagators (in C62 a compression kernel is
  one command; its threads are in C74); the parameter lists of all functions are in `Interface`.
* The half-precision and subnormal ranges are not modelled: with a largest value below
  1/127 of the smallest normal number the compression divides by a quotient that rounds to
  zero in floating point.
* `/repo` itself is read as text; the correspondence model/code is by reading.

## Plan per property

| id | model | proof |
|----|-------|-------|
| C01 | layers 1-3 for scalar | chunked driver = iterate of one-step function, induction on chunks, parity invariant on the two buffers |
| C02 | layer 3 with a trace of callback events | list of events computed in closed form by induction |
| C03 | layer 3 + output slice + create_or_pad | corollary of C01 and iterate addition, support invariant |
| C04 | forward and backward layers 1-3 | summation by parts for stencils on fields supported in the interior, induction over steps |
| C05 | same, over ℝ | tangent-linear recursion is the derivative (`HasDerivAt`), then adjoint duality |
| C06 | layer 3 backward with thread buffers | false in the code for several threads: negation with witness; `_partial` for one thread or batched |
| C07 | shot loop as a fold over an arbitrary order | fold over local updates is order independent |
| C08 | thread buffers + combine_grad | sum over fibres of the assignment |
| C09 | Python step and layers 1-3 | support of PML profiles makes the region-1 formula equal to the full one |
| C10 | layer 3 | linearity + induction |
| C11 | layer 3 | induction |
| C12 | one-step function | induction on steps, stencil reach |
| C13 | cfl_condition_n over ℝ | inequalities on ceil |
| C14 | one-step function without PML | energy identity by summation by parts, spectral bound by sum of absolute coefficients |
| C15-C16 | origin, stride, 1D index over lists | induction over dimensions |
| C17 | index + add/record loops | case analysis; partial ignore shown to misbehave |
| C18 | extents functions over lists of locations | min/max fold lemmas |
| C19 | slices and replicate padding | index arithmetic |
| C20 | _get_view | index arithmetic |
| C21 | setup_pml, set_pml_profiles over ℝ | inequalities on exp; pml_freq = 0 shown to divide by zero |
| C22 | loop bounds | arithmetic, nodup of visit list |
| C23 | access lists of kernels | arithmetic; acoustic backward on tiny models shown to leave the row |
| C24-C25 | save/load, files as byte lists with append/seek | invariant over the sequence of saves |
| C26-C27 | compress/decompress over ℝ, block indices | floor inequalities, block partition |
| C28 | stencil tables, both languages | polynomial identities per accuracy |
| C29-C30 | Born layers | tangent-linear identity, adjoint |
| C31-C33 | acoustic layers | as C04, C05, C09 with staggered stencils |
| C34 | set_nt and chunk loop | false if the interval does not divide nt: witness; `_partial` otherwise |
| C35 | validators with errors as values | case analysis |
| C36 | create_or_pad and slices | index arithmetic |
| C37 | conversions over ℝ | field arithmetic, sqrt |
| C38-C39 | Hicks tables | finite sums; cache mutation shown by witness |
| C40 | upsample, downsample with the DFT | closed form as sums of cosines, orthogonality; round trip false with padding: witness, `_partial` |
| C41 | one-step function without PML | symmetric recursion |
| C42 | backward driver trace | as C02 |
| C43 | finite tables of signatures | kernel computation over the whole table |
| C44 | elastic layers | as C31, with a common lemma for all stretched derivatives |
| C45 | get_ndim | case analysis |
| C46 | ricker | real analysis |
| C47-C49 | Born layers | as C04, C05, C01 |
| C50 | acoustic layers | as C01 |
| C51-C52 | Hicks tables | windowed sums, reindexing of the folded part |
| C53 | name tables of elastic callbacks | lookup in zipped lists; false, witnesses |
| C54 | index tables of elastic outputs and buffers | naturality and kernel computation over the whole table |
| C55-C56 | elastic layers | as C32, C50 |
| C57 | elastic_python and elastic layers | as C33; memory variables outside the PML are forgotten in one step |
| C58 | index tables of zero_edges_and_interiors | specification from the letters of the field names, kernel computation over the whole table |
| C59-C60 | as C40 | symmetry of the cosine kernel; orthogonality |
| C61 | all propagators | run(nt + 1) = step of run(nt); stretched derivative = exact derivative of a polynomial outside the PML (C28) |
| C62 | command lists of the CUDA functions, executions = linear extensions of stream and event order | race detector proved sound (non-ordered operations commute), invariant over the steps; false for step ratio > 1 in scalar.cu: execution as witness, `_partial` |
| C63 | CUDA kernels and host functions of the scalar propagator | bijection of guarded threads and interior cells, coordinate test of the PML = region of the visit list, any thread order |
| C64 | ScalarBackwardFunc.backward as one Born forward and one Born backward call | pairing of the first gradients = pairing of scattered data (C30), split by bilinearity (C47), derivative along the velocity (C48) |
| C65 | acoustic and elastic runs | every half step, padding and clearing commutes with linear combinations; induction over the steps |
| C66 | acoustic and elastic runs | crop, pad and clear is the identity on wavefields of the shape kept by the steps; run (m + n) = run n after run m |
| C67 | acoustic and elastic runs | half steps read within order / 2 cells; induction with growing neighbourhoods |
| C68 | acoustic steps, `prepare_models`, `cfl_condition_n` | energy with the kinetic part between time levels is conserved (summation by parts); weighted Cauchy-Schwarz bounds the mixed term by the CFL number; cone argument for the unstable example |
| C69 | elastic steps, `prepare_parameters`, `cfl_condition_n` | as C68 with the strain as a witness that stresses are in the range of the (possibly singular) moduli; Cauchy-Schwarz with the weights moved to the velocity points; harmonic means bounded by neighbouring moduli |
| C70 | parallel shot loops, thread buffers, `combine_grad`, chunk loops of the three other propagators | generic over the memory of a shot (`Core/Batch.lean`): iterations only add to gradients, invariant over calls |
| C71 | CUDA kernels and host functions of the acoustic, elastic and Born propagators | as C63: bijection of guarded threads and cells, guards of the staggered components, PML tests = visit lists; generic lock-step driver (`Gpu/Batch.lean`) reduces to C70 |
| C72 | `_forward_step`, `scalar_born_python` | as C09: both backends equal the recursion of `Born/Forward.lean` |
| C73 | Born forward | the scattered recursion as affine function of background and scattered state; neighbourhood of the snapshot term is that of the background step |
| C74 | `simple_compress.cu` | executions = interleavings with barriers; each phase commutes over the threads, tree reduction = maximum, byte stores are disjoint and determined |
| C75 | acoustic steps, source scaling of `acoustic.py` 561-585 | two runs as alternating updates that are skew adjoint to each other (`Core/Reciprocity.lean`); telescoping sum of the pairing of one run with the other reversed in time; wavelets by pairing with a unit impulse |
| C76 | elastic steps, source scaling of `elastic.py` 917-976, pressure output 1033-1035 | as C75, with the strain in place of the stress |
| C77 | Born steps and source scaling of `scalar_born.py` 493-533 | derivative (C29) of the reciprocity of the scalar propagator (C41) in the direction of the scattering potential |
| C78 | steps and source scaling of all propagators, `prepare_models`, `prepare_parameters`, PML profiles | stencils are symmetric (`Core/Mirror.lean`); point of integer index x goes to n - x on the staggered grid and half points to n - 1 - x, so the shorter padding at the end keeps the interior symmetric; one step commutes with the reflection, then induction over steps; profiles and interpolated models are shown to be mirrored, not assumed to be |
| C79 | `scalar` and `setup_propagator` from the user's arguments (`Setup/Propagator.lean`, `Scalar/User.lean`) | each step of the setup is shown to succeed on the selected shots and to give the selected rows (`Setup/Select.lean`); the propagator then gets the same input |
| C80 | as C79 | the CFL condition gives the opposite internal step and the same ratio; PML profiles use abs(dt), steps and source scaling dt ** 2 |
| C81 | as C79 | setup with extents vs. setup of the cropped arguments (`Setup/Crop.lean`): same padded model, same flat indices, same shapes |
| C82 | as C79 | linearity of `upsample` and `downsample` (`Resample/Linear.lean`) around C10 |
| C83 | as C79 | the setup of the exchanged call gives the exchanged plan; `pml_width=0` gives vanishing profiles, then C41 |
| C84 | as C79 | `Setup/Resume.lean`: given wavefields of the shape of the call the setup finds the same extents; then as C03 |
| C85 | `scalar_born`, `acoustic`, `elastic` from the user's arguments (`Setup/Shot.lean`, `*/User.lean`) | generic `call`: setup, then a propagator run on what one shot gets (`ShotIn`); the setup of the selection gives the same `ShotIn` |
| C86 | as C85 | the setup of the changed or cropped models gives the same `ShotIn` |
| C87 | as C85 | false: velocity locations are checked against the whole model; witness; `_partial` for locations before the last cell of the extents |
| C88 | as C85 | the setup is even in dt except for the time step itself; symmetry of the staggered recursions under dt → -dt (`*/NegDt.lean`) |
| C89 | as C85 | every later step is total except the division by the interval and `range` with step 0; profiles finite from the PML conditions |
| C90 | `scalar` from the user's arguments | independent specification of the discretised wave equation with PML in model coordinates (`Spec/Grid.lean`); profiles, models and locations of the setup expressed in these coordinates (`Setup/Coords.lean`), then the reference recursion; uniqueness of the solution |
| C91 | `scalar_born` from the user's arguments | as C90 with `Spec/Born.lean` |
| C92 | `acoustic` from the user's arguments | as C90 with `Spec/Acoustic.lean`; finite-difference weights of the specification in closed form (`Spec/Stencil.lean`) |
| C93 | `elastic` from the user's arguments | as C92 with `Spec/Elastic.lean` |
| C94 | `scalar` and its `backward` from the user's arguments (`Setup/Autograd.lean`, `Scalar/UserGrad.lean`) | the objective is linear in amplitudes and wavefields for every model (C04) and differentiable in the model for every input (C05), so its coefficients are differentiable and the product rule gives the joint derivative along any curve (`Scalar/GradAll.lean`); then the chain rule through the source scaling, and transposes of padding, slicing and expanding.  `max_vel` has to be given: it is otherwise `v.abs().max().item()`, outside automatic differentiation, and changes the PML profiles.  That PyTorch differentiates slicing, padding, `expand`, products and the FFT resampling correctly is trusted; the resampling transposes are written by their action on unit vectors |
| C95 | as C94 | C04 for any ratio, with transposes of `upsample` and `downsample_and_movedim` |
| C96 | `scalar_born` and its `backward` from the user's arguments (`Setup/AutogradShot.lean`, `Born/UserGrad.lean`) | as C94, with `Born/GradAll.lean` for the joint derivative: the outputs are linear in the scattering potential as well; both backward kernels (`backward` and `backward_sc`) |
| C97 | as C96 | the adjoint of `scalar_born` for any ratio, with transposes of `upsample` and `downsample_and_movedim` |
| C98 | `acoustic` and its `backward` from the user's arguments, with the transposes of `prepare_models` and of the source scaling (`Acoustic/UserGrad.lean`) | the derivative of the recursion along curves of bulk modulus, buoyancies and amplitudes (`Acoustic/GradAll.lean`); derivative of masked inverses; `dot_shift` for the transposed means; transposes of padding and resampling as for C94 |
| C99 | as C98 | C31 for any ratio, with transposes of `upsample` and `downsample_and_movedim` |
| C100 | `elastic` and its `backward` from the user's arguments (`Setup/AutogradShot.lean`, `Elastic/UserGrad.lean`) | as C98, with `Elastic/GradAll.lean` for the derivative along a curve of models and the transposes of `prepare_parameters` |
| C101 | as C100 | the adjoint of `elastic` for any ratio, with transposes of `upsample` and `downsample_and_movedim` |
| C102 | `scalar` and `scalar_born` from the user's arguments | equality of the two plans, padded `v + e scatter`, `hasDeriv_scRun` of C29, linearity of `downsample` |
| C103 | `scalar_born`, `acoustic` and `elastic` from the user's arguments | checks depend on shapes only; linearity of resampling, scaling, reference recursion and sampling |
| C104 | the same | plan of a part, `start (outOf s) = s` on states that are zero outside, composition of the reference recursion |
| C105 | `acoustic` and `elastic` from the user's arguments | C92 and C93 for the two calls, induction over the time steps of the two specifications |
| C106 | `scalar`, `acoustic`, `elastic` from the user's arguments, without PML | bounds of the energy along the reference recursion, and `cfl_condition_n` as a hypothesis that every accepted call meets |
| C107 | `scalar`, `scalar_born`, `acoustic`, `elastic` from the user's arguments with all shots: OpenMP loops, CUDA launches, Python backend | per shot equality with the single-shot call, through C70/C71 (C07/C63) and C09/C33/C57/C72; distinct source cells and shared models from the plan |
| C108 | classes `Scalar`, `ScalarBorn`, `Acoustic`, `Elastic` (`Interface/Module.lean`), rules of Python for binding arguments | a class whose tables satisfy decidable conditions forwards every argument; conditions evaluated for the four tables |
| C109 | `get_backend_function`, `_assign_argtypes`, names by `FUNC`, object list of CMakeLists.txt (`Interface/Selection.lean`) | names of different builds differ (pieces that are no prefixes of each other), so look-up by name is look-up by constants; types compared with the parameter tables of C43; partial: false for `backward_sc` on the CPU |
| C110 | `backward` of the four propagators for all shots on CPU threads and CUDA (`*/UserGradBackend.lean`), blocks of shared models (`Setup/Blocks.lean`) | C70/C71 give the driver's gradients as sums over shots; what follows (source scaling, `prepare_models`, `prepare_parameters`, slicing) is linear in the gradients, with coefficients that depend only on the block |
| C111 | calls with one source and one receiver (`UArgs.between`, `Props/UserReciprocity*.lean`), setup with sources and receivers exchanged (`Setup/Exchange.lean`) | the setup depends on the locations only as a set, except for the indices; then C75, C76, C77 for the propagators, and linearity of the resampling |
| C112 | `check_inputs_not_vmapped` and the argument lists of the four functions (`Interface/Guards.lean`) | the lists are compared with the tensor parameters of the signatures of C108, by name; partial: false for elastic |
| C113 | `get_ndim` (`Setup/Validate.lean`) on the lists of the four functions (`Interface/Guards.lean`) | C45 for the loop; each tensor parameter is an entry of the lists, and conversely; partial: false for elastic |
| C114 | rejection of locations of axes that the call does not have, and the lists of amplitudes, locations and wavefields passed on | each parameter is either in a list passed on or checked; partial: amplitudes are not checked |
| C115 | warnings of `setup_propagator` (`Setup/Warnings.lean`, `Elastic/Warnings.lean`) next to the plan of `Setup/Propagator.lean` | the warnings do not change the plan; each is a condition on the plan; the bound of C13 is monotone in the velocity |
| C116 | flat argument lists, saved tensors, unpacking and returned gradients of the autograd functions (`Interface/Autograd.lean`) | tensors and options are opaque; lists of blocks: splitting an append by the length of a block gives the block; PyTorch's rule is `collect` |
| C117 | dictionaries given to callbacks of scalar, Born and acoustic (`Interface/Callbacks.lean`) | lists of each length taken apart; compared with the names of the arguments (`Interface/Guards.lean`) |
| C118 | `python_backend`, module variables of the step functions, refusals, storage mode (`Interface/Backends.lean`) | invariant of the module variables over any sequence of calls; partial: acoustic does not refuse storage_compression |
| C119 | setup of a call with rearranged tensors (`Setup/Reorder.lean`) | both calls plan the same grid and inject the same; C90-C93 and uniqueness of the solution |
| C120 | calls that differ in callback, frequency and gradient flags | the same, by C90-C93 (hypotheses as there) |
| C121 | buffers as memory, `save_snapshot_gpu`/`load_snapshot_gpu` with offsets as in the code (`Gpu/Storage.lean`) | invariant: places of kept snapshots hold them; kernels in any order (C74) |
| C122 | file system with stores of many processes (`Storage/Files.lean`) | invariant over the history: content of a store's file is what it wrote |
| C123 | calls as in C90-C93; setup with other amplitudes (`Setup/Delay.lean`) | the delayed solution solves the scheme with delayed sources (`Spec/Delay.lean`); uniqueness |
| C124 | as C123 | solutions of the scheme agree up to T if the sources agree before T (`Spec/Before.lean`) |
| C125 | calls as in C90-C93; setup with permuted axes (`Setup/Axes.lean`) | the permuted solution solves the scheme of the permuted call (`Spec/Axes.lean`); uniqueness |
| C126 | calls as in C90-C93 | solutions of the scheme agree in boxes that shrink by the width of the stencil in each time step (`Spec/Near.lean`) |
| C127 | calls as in C90-C93 | waves are zero outside boxes that grow around the sources, and solutions agree in boxes that shrink around the receiver (`Spec/Inside.lean`); PML profiles are zero in the model |
| C128 | calls of `scalar_born` as in C91 | the recursion of the scattered field is linear in potential and field together; solutions are unique |
| C129 | calls as in C90-C93 | central and staggered differences, averages and PML profiles in the mirror (`Spec/Mirror.lean`, `Spec/MirrorStaggered.lean`); the checks of the setup in the mirror (`Setup/Mirror.lean`); solutions are unique |
| C130 | calls as in C90-C93, `get_wavefield` as in C20 | the events of the chunk driver are the states of the run at multiples of the frequency (`scheme_events`); views of the padded array |
| C131 | calls as in C90, C91 | without PML the scheme is `u(t+1) + u(t-1) = 2 u(t) + ...`, symmetric in time: the reversed fields solve it (`Grid.Wave.reversed`), unique from the start |
| C132 | calls of the four propagators | extracted models have the same values for the shot, the maximum velocity is over the same set, so the plan and the run are the same |
| C133 | schemes of C90-C93, `Spec/Scale.lean` | step ratio and PML profiles do not change when dx, dt and 1/frequency are multiplied by the same number; the scaled solution solves the scaled recursion, which has one solution |
| C134 | schemes of C90-C93, `Spec/Sum.lean` | finite sums of delayed solutions are solutions; with the sources of the pulses they have the sources of the call up to the last sample, so by uniqueness they are its solution; step ratio 1 as in C123 (with more internal steps the samples are resampled over the whole time) |
| C135 | schemes of C90-C93, `Spec/Move.lean`, `Spec/Inside.lean` | the schemes with another origin are schemes again; then two solutions on different grids agree inside as in C127 |
| C136 | schemes of C90-C92 | the schemes contain the velocity only squared or times the scattering potential; uniqueness |
| C137 | schemes of C92, C93 | a solution with pressures and stresses multiplied solves the scheme with multiplied density; uniqueness |
| C138 | schemes of C90-C93, `Spec/Reverse.lean` | without PML the profiles vanish, so the schemes do not contain the maximum velocity and the frequency; uniqueness |
| C139 | calls and backward passes as in C95, C97, C99, C101 | the change from the inputs to zero inputs is given by the gradients exactly; zero inputs give zero outputs (C103, or uniqueness of C90) |
| C140 | calls and backward passes as in C94, C96, C98, C100 | the gradient is the derivative in the direction of one cell; by C126 the samples before T do not depend on that cell, so the derivative is zero |
| C141 | calls and backward passes as in C94 to C101 | gradients are the exact changes of the paired outputs (C94 to C101), and the pairing is linear in the given gradients |
| C142 | calls and backward passes as in C95, C97, C99 and C101 | the gradient of one source sample is the change of the paired outputs for a unit change of that sample (C95 to C101); the traces up to that sample do not change, by the schemes C90 to C93 as in C124 |
| C143 | calls and backward passes as in C142 | as C142, with C126 for the traces of receivers that the changed source does not reach |
| C144 | calls and backward passes as in C141 | both gradients are derivatives by C94, C96, C98, C100; the traces agree up to the last used sample for every change of the models by C124, so the derivatives are equal |

## Findings

Where the code does not do what the property says, the model follows the code and the
negation is proved with a concrete witness.

* A number of steps not divisible by `model_gradient_sampling_interval` times the step ratio
  leaves the last steps unpropagated (`C34_*`); fewer steps than that and no callback gives a
  ValueError from `range` with step 0. Double backpropagation makes all steps and is then not the
  derivative of the backward pass (`C64_fails_if_interval_does_not_divide`).
* Several backward chunks, more than one thread and an unbatched model count the gradient of
  earlier chunks again (`C06_*`): `combine_grad` adds the thread buffers at the end of each
  chunk and does not clear them. Same pattern in all propagators. On a GPU the same happens with
  several shots instead of threads (`C06_fails_on_gpu`; `grad_v_tmp` is cleared once, scalar.py
  1192-1203).
* For accuracies above 2 the time step chosen by `cfl_condition_n` does not make `acoustic` and
  `elastic` stable for all media. The stencils reach beyond the two cells whose densities are
  averaged: a density contrast of 46080 at constant velocity, with accuracy 4, makes pressure or
  stress grow by more than a factor of 12 in every step (`C68_unstable_for_large_contrast`,
  `C69_unstable_for_large_contrast`). A density contrast up to ten within the stencil (`C68_stable`),
  or the condition of `C69_stable`, is safe, and accuracy 2 is safe for all media
  (`C68_stable_accuracy_two`, `C69_stable_accuracy_two`).
* `elastic` does not scale pressure sources by the bulk modulus (`acoustic` does), so exchanging a
  pressure source and a pressure receiver changes the trace by the ratio of the bulk moduli
  (`C76_elastic_exchange_pressure`, `C76_pressure_not_reciprocal`).
* A location ignored in only some coordinates is placed in the padding (`C17_*`).
* An integer survey_pad with all locations ignored gives an inverted extent (`C18_*`).
* `check_locations_within_extents` raises on all-ignored locations (modelled).
* `get_ndim` does not check the field that determined the dimension (`C45_*`). elastic.py
  leaves `sigmaxx_0` out of the list it passes, and out of the check for batched tensors
  (`C112_fails_for_sigmaxx`, `C113_fails_for_sigmaxx`): `sigmaxx_0` alone does not determine the
  dimension, one of a wrong rank goes on, and a batched one is not refused.
* `acoustic` and `elastic` reject locations, but not source amplitudes, of an axis that the call does
  not have; the amplitudes are ignored (`C114_amplitudes_ignored`).
* `pml_freq = 0` passes validation and divides by zero (`C21_*`); `dt = 0` in the CFL test
  divides by zero (`C13_*`).
* Hicks: the cached weights are folded in place at a free surface, and fractions within one
  bucket of width eps share weights (`C39_*`); for negative coordinates the window is not
  centred (`C52_*`).
* Acoustic backward on models narrower than the PML region start reads fields it has already
  overwritten (`C31_fails_for_tiny_model`).
* The CPU function `backward_sc` of the Born propagator has one parameter fewer than declared
  and passed (`C43_fails_for_backward_sc`).
* Elastic callbacks: `m_sigmaxxx_0` is missing from backward callbacks; in 3D the models are
  labelled with the 2D names (`C53_*`). The Python backend zips the names with table rows that
  start with an empty tensor: shear stresses and their memory variables are shown as empty
  tensors or under the name of another field (`C53_fails_for_python_backend`).
* The Python backends of the scalar and elastic propagators do not clear the interior of the
  supplied memory variables; this shows in the callback at step 0 only
  (`C57_first_event_differs`). elastic_python computes masked receiver data and returns the
  unmasked ones; the ignored receivers read a padding cell, which holds zero.
* The backward callback of the scalar propagator shows the negated adjoint as `wavefield_m1`
  (`C42_*`).
* With `model_gradient_sampling_interval` > 1, callback steps and frequency count units of
  step ratio times interval.
* The Python backend of `acoustic` takes `storage_compression=True` and ignores it; the others refuse it
  (`C118_acoustic_ignores_compression`).
* `max_vel` is taken from the whole model although the documentation says the part used.
* `acoustic` and `elastic` check velocity locations (acoustic.py 470-495, elastic.py 770-793) against
  the last cell of the whole model and not of the part selected by `survey_pad`. A velocity source or
  receiver in the last cell of that part is accepted, while the same call with the models cropped by
  hand is rejected (`C87_not_in_the_last_cell`).
* `upsample` and `downsample` zero the last frequency bin also for odd lengths, where it is not
  the Nyquist bin (`C60_upsample` with l = n / 2). A frequency taper fraction that gives less
  than one bin neither tapers nor zeroes the Nyquist bin, which upsampling then doubles
  (`C59_fails_for_short_taper`). With time padding, downsampling an upsampled signal loses the
  part that was trimmed (`C40_fails_with_padding`).
* scalar.cu and scalar_born.cu: `event_storage_done` is reset to `event_storage_done_a` in every
  step, also in steps without snapshot, and `forward` waits at its end for this event only. With a
  step ratio larger than 1 and an odd index of the last snapshot nothing waits for the last copy,
  and the backward pass may read the slot before it is written
  (`C62_fails_for_events_in_store_steps`). acoustic.cu and elastic.cu choose the event in every
  step and are free of races.
