import Verif.Interface.Kinds

/-!
# Python side of the calls into the compiled code

`Template.*`: the `argtypes` lists of backend_utils.py.  `Call.*`: the values passed by the
propagators, in order.  A passed value is written as (kind of the Python value, quantity it
holds), quantities being named as in the C sources.  Tensors are passed as `data_ptr()`
(kind `ptr`), Python floats have kind `real`.  A Python integer may be passed for `c_int64`
or `c_size_t`; the byte counts are written with kind `size`, other integers with kind `i64`.
-/

namespace Dw.Interface

open Kind

/-- A Python list with one entry per dimension, for the last `nd` of the dimensions z, y, x. -/
def each (nd : ℕ) (k : Kind) (names : List String) : Sig :=
  (names.drop (3 - nd)).map fun n => (k, n)

/-- Several entries of one kind. -/
def all (k : Kind) (names : List String) : Sig := names.map fun n => (k, n)

/-- `[t] * n` -/
def rep (n : ℕ) (k : Kind) : List Kind := List.replicate n k

/-- `if c: args += …` -/
def opt (c : Prop) [Decidable c] (l : List Kind) : List Kind := if c then l else []

/-! ## Templates -/

/-- backend_utils.py lines 37-65 (after the test 1 ≤ ndim ≤ 3). -/
def Template.scalar.forward (nd : ℕ) : List Kind :=
  rep 4 ptr ++ rep nd ptr ++ rep nd ptr ++ rep nd ptr ++ rep 4 ptr ++ [ptr] ++ [ptr] ++
  rep (3 * nd) ptr ++ rep 2 ptr ++ rep nd real ++ rep nd real ++ [real] ++ rep 2 i64 ++
  rep nd i64 ++ rep 3 i64 ++ [i64] ++ rep 2 size ++ rep 3 bool ++ [i64] ++ rep (2 * nd) i64 ++
  [i64] ++ [ptr]

/-- backend_utils.py lines 68-96. -/
def Template.scalar.backward (nd : ℕ) : List Kind :=
  rep 4 ptr ++ rep nd ptr ++ rep nd ptr ++ rep nd ptr ++ rep nd ptr ++ rep 4 ptr ++ [ptr] ++
  rep 3 ptr ++ rep (3 * nd) ptr ++ rep 2 ptr ++ rep nd real ++ rep nd real ++ rep 2 i64 ++
  rep nd i64 ++ rep 3 i64 ++ [i64] ++ rep 2 size ++ rep 3 bool ++ [i64] ++ rep (2 * nd) i64 ++
  [i64] ++ [ptr]

/-- backend_utils.py lines 99-140. -/
def Template.born.forward (nd : ℕ) : List Kind :=
  rep 4 ptr ++ rep 2 ptr ++ rep nd ptr ++ rep nd ptr ++ rep nd ptr ++ rep 2 ptr ++ rep nd ptr ++
  rep nd ptr ++ rep nd ptr ++ rep 4 ptr ++ [ptr] ++ rep 4 ptr ++ [ptr] ++ rep 2 ptr ++
  rep (3 * nd) ptr ++ rep 3 ptr ++ rep nd real ++ rep nd real ++ [real] ++ rep 2 i64 ++
  rep nd i64 ++ rep 3 i64 ++ [i64] ++ [i64] ++ rep 2 size ++ rep 5 bool ++ [i64] ++
  rep (2 * nd) i64 ++ [i64] ++ [ptr]

/-- backend_utils.py lines 143-187. -/
def Template.born.backward (nd : ℕ) : List Kind :=
  rep 4 ptr ++ rep 2 ptr ++ rep nd ptr ++ rep nd ptr ++ rep nd ptr ++ rep nd ptr ++ rep 2 ptr ++
  rep nd ptr ++ rep nd ptr ++ rep nd ptr ++ rep nd ptr ++ rep 4 ptr ++ [ptr] ++ rep 4 ptr ++
  [ptr] ++ rep 6 ptr ++ rep (3 * nd) ptr ++ rep 3 ptr ++ rep nd real ++ rep nd real ++ [real] ++
  rep 2 i64 ++ rep nd i64 ++ rep 4 i64 ++ [i64] ++ [i64] ++ rep 2 size ++ rep 5 bool ++ [i64] ++
  rep (2 * nd) i64 ++ [i64] ++ [ptr]

/-- backend_utils.py lines 190-223. -/
def Template.born.backward_sc (nd : ℕ) : List Kind :=
  rep 2 ptr ++ rep 2 ptr ++ rep nd ptr ++ rep nd ptr ++ rep nd ptr ++ rep nd ptr ++ rep 4 ptr ++
  rep 1 ptr ++ rep 3 ptr ++ rep (3 * nd) ptr ++ rep 2 ptr ++ rep nd real ++ rep nd real ++
  [real] ++ rep 2 i64 ++ rep nd i64 ++ rep 2 i64 ++ [i64] ++ [i64] ++ rep 2 size ++ rep 4 bool ++
  [i64] ++ rep (2 * nd) i64 ++ [i64] ++ [ptr]

/-- backend_utils.py lines 233-241: model part of the elastic templates. -/
def Template.elastic.models (nd : ℕ) : List Kind :=
  rep 2 ptr ++ opt (nd = 3) (rep 2 ptr) ++ opt (nd ≥ 2) [ptr] ++ opt (nd = 3) [ptr] ++
  opt (nd ≥ 2) [ptr] ++ [ptr]

/-- One entry per direction and two for x and p (backend_utils.py lines 262-266 etc.). -/
def Template.elastic.zyxp (nd : ℕ) : List Kind :=
  opt (nd = 3) [ptr] ++ opt (nd ≥ 2) [ptr] ++ rep 2 ptr

/-- The part after the locations (backend_utils.py lines 287-314 and 411-438). -/
def Template.elastic.tail (nd : ℕ) : List Kind :=
  rep nd real ++ [real] ++ rep 2 i64 ++ rep nd i64 ++ rep (nd + 1) i64 ++ rep (nd + 1) i64 ++
  [i64] ++ [i64] ++ rep 2 size ++ rep 6 bool ++ [bool] ++ [i64] ++ rep (2 * nd) i64 ++ [i64] ++
  [ptr]

/-- backend_utils.py lines 226-316. -/
def Template.elastic.forward (nd : ℕ) : List Kind :=
  Template.elastic.models nd ++ rep (nd + 1) ptr ++
  opt (nd = 3) (rep 14 ptr) ++ opt (nd ≥ 2) (rep 9 ptr) ++ rep 4 ptr ++
  opt (nd = 3) (rep (4 * 5) ptr) ++ opt (nd ≥ 2) (rep (3 * 5) ptr) ++ rep (2 * 5) ptr ++
  Template.elastic.zyxp nd ++
  opt (nd = 3) (rep 4 ptr) ++ opt (nd ≥ 2) (rep 4 ptr) ++ rep 4 ptr ++
  Template.elastic.zyxp nd ++ Template.elastic.zyxp nd ++ Template.elastic.tail nd

/-- backend_utils.py lines 319-440. -/
def Template.elastic.backward (nd : ℕ) : List Kind :=
  Template.elastic.models nd ++ rep (nd + 1) ptr ++
  opt (nd = 3) (rep 14 ptr) ++ opt (nd ≥ 2) (rep 9 ptr) ++ rep 4 ptr ++
  opt (nd = 3) (rep 5 ptr) ++ opt (nd ≥ 2) (rep 3 ptr) ++ [ptr] ++
  opt (nd = 3) (rep (4 * 5) ptr) ++ opt (nd ≥ 2) (rep (3 * 5) ptr) ++ rep (2 * 5) ptr ++
  Template.elastic.zyxp nd ++ Template.elastic.models nd ++ Template.elastic.models nd ++
  opt (nd = 3) (rep 4 ptr) ++ opt (nd ≥ 2) (rep 4 ptr) ++ rep 4 ptr ++
  Template.elastic.zyxp nd ++ Template.elastic.zyxp nd ++ Template.elastic.tail nd

/-- backend_utils.py lines 443-470. -/
def Template.acoustic.forward (nd : ℕ) : List Kind :=
  rep (1 + nd) ptr ++ rep (1 + nd) ptr ++ rep (1 + 3 * nd) ptr ++ rep 5 ptr ++ rep (5 * nd) ptr ++
  rep (1 + nd) ptr ++ rep (4 * nd) ptr ++ rep (1 + nd) ptr ++ rep (1 + nd) ptr ++
  rep (nd + 1) real ++ rep 2 i64 ++ rep nd i64 ++ rep (1 + nd) i64 ++ rep (1 + nd) i64 ++
  rep 2 i64 ++ rep 2 size ++ rep 5 bool ++ [i64] ++ rep (2 * nd) i64 ++ [i64] ++ [ptr]

/-- backend_utils.py lines 473-503. -/
def Template.acoustic.backward (nd : ℕ) : List Kind :=
  rep (1 + nd) ptr ++ rep (1 + nd) ptr ++ rep (1 + 3 * nd) ptr ++ rep nd ptr ++ rep 5 ptr ++
  rep (5 * nd) ptr ++ rep (1 + nd) ptr ++ rep (2 + 2 * nd) ptr ++ rep (4 * nd) ptr ++
  rep (1 + nd) ptr ++ rep (1 + nd) ptr ++
  rep (nd + 1) real ++ rep 2 i64 ++ rep nd i64 ++ rep (1 + nd) i64 ++ rep (1 + nd) i64 ++
  rep 2 i64 ++ rep 2 size ++ rep 5 bool ++ [i64] ++ rep (2 * nd) i64 ++ [i64] ++ [ptr]

/-! ## Groups shared by the call sites -/

/-- `storage_ptrs` of one allocation: `Storage.get_ptrs`, common.py lines 101-113. -/
def ptrsOf (a b c d e : String) : Sig := all ptr [a, b, c, d, e]

/-- `pml_profiles` of the regular grid: a, b, dbdx for each dimension
(regular_grid.py `set_pml_profiles`). -/
def regularProfiles (nd : ℕ) : Sig :=
  sec (nd ≥ 3) (all ptr ["az", "bz", "dbzdz"]) ++ sec (nd ≥ 2) (all ptr ["ay", "by", "dbydy"]) ++
  all ptr ["ax", "bx", "dbxdx"]

/-- `pml_profiles` of the staggered grid: a, b, ah, bh for each dimension
(staggered_grid.py lines 14-91). -/
def staggeredProfiles (nd : ℕ) : Sig :=
  sec (nd ≥ 3) (all ptr ["az", "bz", "azh", "bzh"]) ++
  sec (nd ≥ 2) (all ptr ["ay", "by", "ayh", "byh"]) ++ all ptr ["ax", "bx", "axh", "bxh"]

/-- `*pml_b, *pml_e, aux, stream`. -/
def pmlEnd (nd : ℕ) : Sig :=
  each nd i64 ["pml_z0", "pml_y0", "pml_x0"] ++ each nd i64 ["pml_z1", "pml_y1", "pml_x1"] ++
  [(i64, "n_threads"), (ptr, "unused")]

/-- `*rdx, *rdx2`. -/
def spacings (nd : ℕ) : Sig :=
  each nd real ["rdz", "rdy", "rdx"] ++ each nd real ["rdz2", "rdy2", "rdx2"]

/-- `…nt, n_shots, *model_shape`. -/
def sizes (nd : ℕ) : Sig := all i64 ["nt", "n_shots"] ++ each nd i64 ["nz", "ny", "nx"]

/-- `step_ratio, storage_mode, shot_bytes_uncomp, shot_bytes_comp`. -/
def storageArgs : Sig :=
  all i64 ["step_ratio", "storage_mode"] ++ all size ["shot_bytes_uncomp", "shot_bytes_comp"]

/-- The storage of the scalar propagator. -/
def wStore : Sig := ptrsOf "w_store_1" "w_store_1b" "w_store_2" "w_store_3" "w_filenames_ptr"

/-- The second storage of the Born propagator. -/
def wscStore : Sig :=
  ptrsOf "wsc_store_1" "wsc_store_1b" "wsc_store_2" "wsc_store_3" "wsc_filenames_ptr"

def psiNames := ["psiz", "psiy", "psix"]
def psinNames := ["psizn", "psiyn", "psixn"]
def zetaNames := ["zetaz", "zetay", "zetax"]
def zetanNames := ["zetazn", "zetayn", "zetaxn"]
def psiscNames := ["psizsc", "psiysc", "psixsc"]
def psinscNames := ["psiznsc", "psiynsc", "psixnsc"]
def zetascNames := ["zetazsc", "zetaysc", "zetaxsc"]
def zetanscNames := ["zetaznsc", "zetaynsc", "zetaxnsc"]

/-! ## Call sites -/

/-- scalar.py lines 878-915. -/
def Call.scalar.forward (nd : ℕ) : Sig :=
  all ptr ["v", "f", "wfc", "wfp"] ++ each nd ptr psiNames ++ each nd ptr psinNames ++
  each nd ptr zetaNames ++ wStore ++ all ptr ["r"] ++ regularProfiles nd ++
  all ptr ["sources_i", "receivers_i"] ++ spacings nd ++ [(real, "dt2")] ++ sizes nd ++
  all i64 ["n_sources_per_shot", "n_receivers_per_shot"] ++ storageArgs ++
  all bool ["v_requires_grad", "v_batched", "storage_compression"] ++ [(i64, "start_t")] ++
  pmlEnd nd

/-- scalar.py lines 1253-1290. -/
def Call.scalar.backward (nd : ℕ) : Sig :=
  all ptr ["v2dt2", "grad_r", "wfc", "wfp"] ++ each nd ptr psiNames ++ each nd ptr psinNames ++
  each nd ptr zetaNames ++ each nd ptr zetanNames ++ wStore ++
  all ptr ["grad_f", "grad_v", "grad_v_thread"] ++ regularProfiles nd ++
  all ptr ["sources_i", "receivers_i"] ++ spacings nd ++ sizes nd ++
  all i64 ["n_sources_per_shot", "n_receivers_per_shot"] ++ storageArgs ++
  all bool ["v_requires_grad", "v_batched", "storage_compression"] ++ [(i64, "start_t")] ++
  pmlEnd nd

/-- scalar_born.py lines 860-905. -/
def Call.born.forward (nd : ℕ) : Sig :=
  all ptr ["v", "scatter", "f", "fsc", "wfc", "wfp"] ++ each nd ptr psiNames ++
  each nd ptr psinNames ++ each nd ptr zetaNames ++ all ptr ["wfcsc", "wfpsc"] ++
  each nd ptr psiscNames ++ each nd ptr psinscNames ++ each nd ptr zetascNames ++
  wStore ++ wscStore ++ all ptr ["r", "rsc"] ++ regularProfiles nd ++
  all ptr ["sources_i", "receivers_i", "receiverssc_i"] ++ spacings nd ++ [(real, "dt2")] ++
  sizes nd ++
  all i64 ["n_sources_per_shot", "n_receivers_per_shot", "n_receiverssc_per_shot"] ++
  storageArgs ++
  all bool ["v_requires_grad", "scatter_requires_grad", "v_batched", "scatter_batched",
    "storage_compression"] ++ [(i64, "start_t")] ++ pmlEnd nd

/-- scalar_born.py lines 1173-1226. -/
def Call.born.backward (nd : ℕ) : Sig :=
  all ptr ["v", "scatter", "grad_r", "grad_rsc", "wfc", "wfp"] ++ each nd ptr psiNames ++
  each nd ptr psinNames ++ each nd ptr zetaNames ++ each nd ptr zetanNames ++
  all ptr ["wfcsc", "wfpsc"] ++
  each nd ptr psiscNames ++ each nd ptr psinscNames ++ each nd ptr zetascNames ++
  each nd ptr zetanscNames ++ wStore ++ wscStore ++
  all ptr ["grad_f", "grad_fsc", "grad_v", "grad_scatter", "grad_v_thread",
    "grad_scatter_thread"] ++ regularProfiles nd ++
  all ptr ["sources_i", "receivers_i", "receiverssc_i"] ++ spacings nd ++ [(real, "dt2")] ++
  sizes nd ++
  all i64 ["n_sources_per_shot", "n_sourcessc_per_shot", "n_receivers_per_shot",
    "n_receiverssc_per_shot"] ++
  storageArgs ++
  all bool ["v_requires_grad", "scatter_requires_grad", "v_batched", "scatter_batched",
    "storage_compression"] ++ [(i64, "start_t")] ++ pmlEnd nd

/-- scalar_born.py lines 1299-1342; `storage_ptrs[:5]` is the first allocation. -/
def Call.born.backward_sc (nd : ℕ) : Sig :=
  all ptr ["v", "grad_rsc", "wfcsc", "wfpsc"] ++
  each nd ptr psiscNames ++ each nd ptr psinscNames ++ each nd ptr zetascNames ++
  each nd ptr zetanscNames ++ (wStore ++ wscStore).take 5 ++
  all ptr ["grad_fsc", "grad_scatter", "grad_scatter_thread"] ++ regularProfiles nd ++
  all ptr ["sources_i", "receiverssc_i"] ++ spacings nd ++ [(real, "dt2")] ++
  sizes nd ++ all i64 ["n_sourcessc_per_shot", "n_receiverssc_per_shot"] ++
  storageArgs ++
  all bool ["scatter_requires_grad", "v_batched", "scatter_batched", "storage_compression"] ++
  [(i64, "start_t")] ++ pmlEnd nd

/-- scalar.py lines 1562-1611: double backpropagation calls the Born forward function; the
perturbation `ggv` takes the place of `scatter`, the `ggsource_amplitudes` that of `fsc`. -/
def Call.double.forward (nd : ℕ) : Sig :=
  all ptr ["v", "scatter", "f", "fsc", "wfc", "wfp"] ++ each nd ptr psiNames ++
  each nd ptr psinNames ++ each nd ptr zetaNames ++ all ptr ["wfcsc", "wfpsc"] ++
  each nd ptr psiscNames ++ each nd ptr psinscNames ++ each nd ptr zetascNames ++
  wStore ++ wscStore ++ all ptr ["r", "rsc"] ++ regularProfiles nd ++
  all ptr ["sources_i", "receivers_i", "receiverssc_i"] ++ spacings nd ++ [(real, "dt2")] ++
  sizes nd ++
  all i64 ["n_sources_per_shot", "n_receivers_per_shot", "n_receiverssc_per_shot"] ++
  storageArgs ++
  all bool ["v_requires_grad", "scatter_requires_grad", "v_batched", "scatter_batched",
    "storage_compression"] ++ [(i64, "start_t")] ++ pmlEnd nd

/-- scalar.py lines 1764-1817: … and the Born backward function. -/
def Call.double.backward (nd : ℕ) : Sig :=
  all ptr ["v", "scatter", "grad_r", "grad_rsc", "wfc", "wfp"] ++ each nd ptr psiNames ++
  each nd ptr psinNames ++ each nd ptr zetaNames ++ each nd ptr zetanNames ++
  all ptr ["wfcsc", "wfpsc"] ++
  each nd ptr psiscNames ++ each nd ptr psinscNames ++ each nd ptr zetascNames ++
  each nd ptr zetanscNames ++ wStore ++ wscStore ++
  all ptr ["grad_f", "grad_fsc", "grad_v", "grad_scatter", "grad_v_thread",
    "grad_scatter_thread"] ++ regularProfiles nd ++
  all ptr ["sources_i", "receivers_i", "receiverssc_i"] ++ spacings nd ++ [(real, "dt2")] ++
  sizes nd ++
  all i64 ["n_sources_per_shot", "n_sourcessc_per_shot", "n_receivers_per_shot",
    "n_receiverssc_per_shot"] ++
  storageArgs ++
  all bool ["v_requires_grad", "scatter_requires_grad", "v_batched", "scatter_batched",
    "storage_compression"] ++ [(i64, "start_t")] ++ pmlEnd nd

/-! ### Acoustic -/

/-- `models` of the acoustic propagator (acoustic.py lines 37-88). -/
def acousticModels (nd : ℕ) : Sig :=
  all ptr ["k"] ++ each nd ptr ["buoyancy_z", "buoyancy_y", "buoyancy_x"]

/-- `wavefields` of the acoustic propagator: p, the velocities, phi, psi. -/
def acousticFields (nd : ℕ) : Sig :=
  all ptr ["p"] ++ each nd ptr ["vz", "vy", "vx"] ++ each nd ptr ["phi_z", "phi_y", "phi_x"] ++
  each nd ptr ["psi_z", "psi_y", "psi_x"]

/-- The storages of the acoustic propagator: one for the bulk modulus, one per direction. -/
def acousticStores (nd : ℕ) : Sig :=
  ptrsOf "k_grad_store_1" "k_grad_store_1b" "k_grad_store_2" "k_grad_store_3"
    "k_grad_filenames_ptr" ++
  sec (nd ≥ 3) (ptrsOf "bz_grad_store_1" "bz_grad_store_1b" "bz_grad_store_2"
    "bz_grad_store_3" "bz_grad_filenames_ptr") ++
  sec (nd ≥ 2) (ptrsOf "by_grad_store_1" "by_grad_store_1b" "by_grad_store_2"
    "by_grad_store_3" "by_grad_filenames_ptr") ++
  ptrsOf "bx_grad_store_1" "bx_grad_store_1b" "bx_grad_store_2" "bx_grad_store_3"
    "bx_grad_filenames_ptr"

/-- The arguments after the recorded data, common to both acoustic calls. -/
def acousticEnd (nd : ℕ) : Sig :=
  staggeredProfiles nd ++
  all ptr ["sources_i_p"] ++ each nd ptr ["sources_i_vz", "sources_i_vy", "sources_i_vx"] ++
  all ptr ["receivers_i_p"] ++
  each nd ptr ["receivers_i_vz", "receivers_i_vy", "receivers_i_vx"] ++
  each nd real ["rdz", "rdy", "rdx"] ++ [(real, "dt")] ++ sizes nd ++
  all i64 ["n_sources_p_per_shot"] ++
  each nd i64 ["n_sources_vz_per_shot", "n_sources_vy_per_shot", "n_sources_vx_per_shot"] ++
  all i64 ["n_receivers_p_per_shot"] ++
  each nd i64 ["n_receivers_vz_per_shot", "n_receivers_vy_per_shot", "n_receivers_vx_per_shot"] ++
  storageArgs ++
  all bool ["k_requires_grad", "b_requires_grad", "k_batched", "b_batched",
    "storage_compression"] ++ [(i64, "start_t")] ++ pmlEnd nd

/-- acoustic.py lines 966-1003. -/
def Call.acoustic.forward (nd : ℕ) : Sig :=
  acousticModels nd ++ all ptr ["f_p"] ++ each nd ptr ["f_vz", "f_vy", "f_vx"] ++
  acousticFields nd ++ acousticStores nd ++
  all ptr ["r_p"] ++ each nd ptr ["r_vz", "r_vy", "r_vx"] ++ acousticEnd nd

/-- acoustic.py lines 1185-1225. -/
def Call.acoustic.backward (nd : ℕ) : Sig :=
  acousticModels nd ++ all ptr ["grad_r_p"] ++
  each nd ptr ["grad_r_vz", "grad_r_vy", "grad_r_vx"] ++
  acousticFields nd ++ each nd ptr ["psi_zn", "psi_yn", "psi_xn"] ++ acousticStores nd ++
  all ptr ["grad_f_p"] ++ each nd ptr ["grad_f_vz", "grad_f_vy", "grad_f_vx"] ++
  all ptr ["grad_k"] ++ each nd ptr ["grad_bz", "grad_by", "grad_bx"] ++
  all ptr ["grad_k_thread"] ++
  each nd ptr ["grad_bz_thread", "grad_by_thread", "grad_bx_thread"] ++ acousticEnd nd

/-! ### Elastic -/

/-- `models` of the elastic propagator (elastic.py lines 919-920, prepare_parameters). -/
def elasticModels (nd : ℕ) : List String :=
  ["lamb", "mu"] ++
  (if nd = 3 then ["mu_zy", "mu_zx", "mu_yx", "buoyancy_z", "buoyancy_y", "buoyancy_x"]
   else if nd = 2 then ["mu_yx", "buoyancy_y", "buoyancy_x"] else ["buoyancy_x"])

/-- `wavefields` of the elastic propagator (elastic.py, order of the lists built in
`elastic()`). -/
def elasticFields (nd : ℕ) : List String :=
  (if nd ≥ 3 then ["vz", "sigmazz", "sigmayz", "sigmaxz", "m_vzz", "m_vzy", "m_vzx", "m_vyz",
    "m_vxz", "m_sigmazzz", "m_sigmayzy", "m_sigmaxzx", "m_sigmayzz", "m_sigmaxzz"] else []) ++
  (if nd ≥ 2 then ["vy", "sigmayy", "sigmaxy", "m_vyy", "m_vyx", "m_vxy", "m_sigmayyy",
    "m_sigmaxyy", "m_sigmaxyx"] else []) ++
  ["vx", "sigmaxx", "m_vxx", "m_sigmaxxx"]

/-- `aux_wavefields` of the backward pass (elastic.py lines 1692-1702). -/
def elasticAux (nd : ℕ) : List String :=
  (if nd ≥ 3 then ["m_sigmazzzn", "m_sigmayzyn", "m_sigmaxzxn", "m_sigmayzzn", "m_sigmaxzzn"]
   else []) ++
  (if nd ≥ 2 then ["m_sigmayyyn", "m_sigmaxyyn", "m_sigmaxyxn"] else []) ++ ["m_sigmaxxxn"]

/-- The storages of the elastic propagator (elastic.py lines 1323-1352). -/
def elasticStores (nd : ℕ) : Sig :=
  sec (nd ≥ 3) (
    ptrsOf "dvzdbuoyancy_store_1" "dvzdbuoyancy_store_1b" "dvzdbuoyancy_store_2"
      "dvzdbuoyancy_store_3" "dvzdbuoyancy_filenames_ptr" ++
    ptrsOf "dvzdz_store_1" "dvzdz_store_1b" "dvzdz_store_2" "dvzdz_store_3"
      "dvzdz_filenames_ptr" ++
    ptrsOf "dvzdx_plus_dvxdz_store_1" "dvzdx_plus_dvxdz_store_1b" "dvzdx_plus_dvxdz_store_2"
      "dvzdx_plus_dvxdz_store_3" "dvzdx_plus_dvxdz_filenames_ptr" ++
    ptrsOf "dvzdy_plus_dvydz_store_1" "dvzdy_plus_dvydz_store_1b" "dvzdy_plus_dvydz_store_2"
      "dvzdy_plus_dvydz_store_3" "dvzdy_plus_dvydz_filenames_ptr") ++
  sec (nd ≥ 2) (
    ptrsOf "dvydbuoyancy_store_1" "dvydbuoyancy_store_1b" "dvydbuoyancy_store_2"
      "dvydbuoyancy_store_3" "dvydbuoyancy_filenames_ptr" ++
    ptrsOf "dvydy_store_1" "dvydy_store_1b" "dvydy_store_2" "dvydy_store_3"
      "dvydy_filenames_ptr" ++
    ptrsOf "dvydx_plus_dvxdy_store_1" "dvydx_plus_dvxdy_store_1b" "dvydx_plus_dvxdy_store_2"
      "dvydx_plus_dvxdy_store_3" "dvydx_plus_dvxdy_filenames_ptr") ++
  ptrsOf "dvxdbuoyancy_store_1" "dvxdbuoyancy_store_1b" "dvxdbuoyancy_store_2"
    "dvxdbuoyancy_store_3" "dvxdbuoyancy_filenames_ptr" ++
  ptrsOf "dvxdx_store_1" "dvxdx_store_1b" "dvxdx_store_2" "dvxdx_store_3" "dvxdx_filenames_ptr"

/-- The arguments after the recorded data, common to both elastic calls. -/
def elasticEnd (nd : ℕ) : Sig :=
  staggeredProfiles nd ++
  each nd ptr ["sources_z_i", "sources_y_i", "sources_x_i"] ++ all ptr ["sources_p_i"] ++
  each nd ptr ["receivers_z_i", "receivers_y_i", "receivers_x_i"] ++ all ptr ["receivers_p_i"] ++
  each nd real ["rdz", "rdy", "rdx"] ++ [(real, "dt")] ++ sizes nd ++
  each nd i64 ["n_sources_z_per_shot", "n_sources_y_per_shot", "n_sources_x_per_shot"] ++
  all i64 ["n_sources_p_per_shot"] ++
  each nd i64 ["n_receivers_z_per_shot", "n_receivers_y_per_shot", "n_receivers_x_per_shot"] ++
  all i64 ["n_receivers_p_per_shot"] ++
  storageArgs ++
  all bool ["lamb_requires_grad", "mu_requires_grad", "buoyancy_requires_grad", "lamb_batched",
    "mu_batched", "buoyancy_batched", "storage_compression"] ++ [(i64, "start_t")] ++ pmlEnd nd

/-- elastic.py lines 1517-1555. -/
def Call.elastic.forward (nd : ℕ) : Sig :=
  all ptr (elasticModels nd) ++ each nd ptr ["f_z", "f_y", "f_x"] ++ all ptr ["f_p"] ++
  all ptr (elasticFields nd) ++ elasticStores nd ++
  each nd ptr ["r_z", "r_y", "r_x"] ++ all ptr ["r_p"] ++ elasticEnd nd

/-- The gradients of the models, one per entry of `models`. -/
def elasticGrads (nd : ℕ) : List String :=
  ["grad_lamb", "grad_mu"] ++
  (if nd = 3 then ["grad_mu_zy", "grad_mu_zx", "grad_mu_yx", "grad_buoyancy_z",
    "grad_buoyancy_y", "grad_buoyancy_x"]
   else if nd = 2 then ["grad_mu_yx", "grad_buoyancy_y", "grad_buoyancy_x"]
   else ["grad_buoyancy_x"])

/-- `grad_models_tmp_ptr`, one per entry of `models`. -/
def elasticGradsTmp (nd : ℕ) : List String :=
  ["grad_lamb_thread", "grad_mu_thread"] ++
  (if nd = 3 then ["grad_mu_zy_thread", "grad_mu_zx_thread", "grad_mu_yx_thread",
    "grad_buoyancy_z_thread", "grad_buoyancy_y_thread", "grad_buoyancy_x_thread"]
   else if nd = 2 then ["grad_mu_yx_thread", "grad_buoyancy_y_thread", "grad_buoyancy_x_thread"]
   else ["grad_buoyancy_x_thread"])

/-- elastic.py lines 1834-1880. -/
def Call.elastic.backward (nd : ℕ) : Sig :=
  all ptr (elasticModels nd) ++ each nd ptr ["grad_r_z", "grad_r_y", "grad_r_x"] ++
  all ptr ["grad_r_p"] ++ all ptr (elasticFields nd) ++ all ptr (elasticAux nd) ++
  elasticStores nd ++ each nd ptr ["grad_f_z", "grad_f_y", "grad_f_x"] ++ all ptr ["grad_f_p"] ++
  all ptr (elasticGrads nd) ++ all ptr (elasticGradsTmp nd) ++ elasticEnd nd

/-! ## Names shown to callbacks by the elastic propagator -/

/-- `wavefield_names`, elastic.py lines 1438-1488 and 1769-1819 (without the suffix `_0`). -/
def elasticFieldNames (nd : ℕ) : List String :=
  (if nd ≥ 3 then ["vz", "sigmazz", "sigmayz", "sigmaxz", "m_vzz", "m_vzy", "m_vzx", "m_vyz",
    "m_vxz", "m_sigmazzz", "m_sigmayzy", "m_sigmaxzx", "m_sigmayzz", "m_sigmaxzz"] else []) ++
  (if nd ≥ 2 then ["vy", "sigmayy", "sigmaxy", "m_vyy", "m_vyx", "m_vxy", "m_sigmayyy",
    "m_sigmaxyy", "m_sigmaxyx"] else []) ++
  ["vx", "sigmaxx", "m_vxx", "m_sigmaxxx"]

/-- `model_names` by the same lines: three assignments in sequence. -/
def elasticModelNames (nd : ℕ) : List String :=
  let names : List String := []
  let names := if nd ≥ 3 then
    ["lamb", "mu", "mu_zy", "mu_zx", "mu_yx", "buoyancy_z", "buoyancy_y", "buoyancy_x"] else names
  let names := if nd ≥ 2 then ["lamb", "mu", "mu_yx", "buoyancy_y", "buoyancy_x"] else names
  if nd = 1 then ["lamb", "mu", "buoyancy_x"] else names

/-- Python `dict(zip(names, values))[name]`; no name occurs twice in the lists used. -/
def dictZip {α : Type*} (names : List String) (values : List α) (name : String) : Option α :=
  (names.zip values).lookup name

/-- The wavefields of a forward callback: elastic.py line 1502. -/
def elasticForwardFields {α : Type*} (nd : ℕ) (values : List α) (name : String) : Option α :=
  dictZip (elasticFieldNames nd) values name

/-- The wavefields of a backward callback: elastic.py lines 1921-1923. -/
def elasticBackwardFields {α : Type*} (nd : ℕ) (values : List α) (name : String) : Option α :=
  dictZip (elasticFieldNames nd) values.dropLast name

/-- The models (and model gradients) of a callback: elastic.py lines 1493 and 1827-1828. -/
def elasticCallbackModels {α : Type*} (nd : ℕ) (values : List α) (name : String) : Option α :=
  dictZip (elasticModelNames nd) values name

/-! ## Outputs of the elastic propagator -/

/-- The reordering of the final wavefields, elastic.py lines 1033-1074; `l` is `outputs`
without the recorded data. -/
def elasticReorder {α : Type*} (nd : ℕ) (l : List α) : List (Option α) :=
  if nd = 3 then
    [0, 14, 23, 1, 2, 3, 15, 16, 24, 4, 5, 6, 7, 8, 17, 18, 19, 25, 9, 10, 11, 12, 13, 20, 21,
      22, 26].map (l[·]?)
  else if nd = 2 then [0, 9, 1, 2, 10, 3, 4, 5, 11, 6, 7, 8, 12].map (l[·]?)
  else l.map some

/-- Python slice `l[a:b]` for 0 ≤ a ≤ b. -/
def slice {α : Type*} (l : List α) (a b : ℕ) : List α := (l.take b).drop a

/-- Python slice assignment `l[a:b] = y` for 0 ≤ a ≤ b. -/
def setSlice {α : Type*} (l : List α) (a b : ℕ) (y : List α) : List α :=
  l.take a ++ y ++ l.drop b

/-- One of the swaps after an odd number of steps:
`g[a:b], x[c:e] = x[c:e], g[a:b]`. -/
def swap {α : Type*} (s : List α × List α) (a b c e : ℕ) : List α × List α :=
  (setSlice s.1 a b (slice s.2 c e), setSlice s.2 c e (slice s.1 a b))

/-- Exchange of the double-buffered fields after an odd number of backward steps,
elastic.py lines 1883-1918; the negative indices are resolved against the length of
`aux_wavefields` (9, 4 and 1). -/
def elasticSwap {α : Type*} (nd : ℕ) (s : List α × List α) : List α × List α :=
  if nd = 3 then swap (swap (swap s 9 14 0 5) 20 23 5 8) 26 27 8 9
  else if nd = 2 then swap (swap s 6 9 0 3) 12 13 3 4
  else swap s 3 4 0 1

end Dw.Interface
