import Verif.Interface.Kinds

/-!
# Parameter lists of the compiled entry points

Transcribed mechanically by `tools/csig.py` from the C and CUDA sources: kind and name of
each parameter, one `sec` per `#if DW_NDIM` block.  Pointer types, `void *` and
`cudaStream_t` have kind `ptr`; `DW_DTYPE` has kind `real`.
-/

namespace Dw.Interface

/-- scalar.c lines 149-232: parameters of `forward`. -/
def Cpu.scalar.forward (nd : ℕ) : Sig :=
  List.flatten [
  [(.ptr, "v"), (.ptr, "f"), (.ptr, "wfc"), (.ptr, "wfp")],
  sec (nd ≥ 3) [(.ptr, "psiz")],
  sec (nd ≥ 2) [(.ptr, "psiy")],
  [(.ptr, "psix")],
  sec (nd ≥ 3) [(.ptr, "psizn")],
  sec (nd ≥ 2) [(.ptr, "psiyn")],
  [(.ptr, "psixn")],
  sec (nd ≥ 3) [(.ptr, "zetaz")],
  sec (nd ≥ 2) [(.ptr, "zetay")],
  [(.ptr, "zetax"), (.ptr, "w_store_1"), (.ptr, "w_store_1b"), (.ptr, "w_store_2"),
     (.ptr, "w_store_3"), (.ptr, "w_filenames_ptr"), (.ptr, "r")],
  sec (nd ≥ 3) [(.ptr, "az"), (.ptr, "bz"), (.ptr, "dbzdz")],
  sec (nd ≥ 2) [(.ptr, "ay"), (.ptr, "by"), (.ptr, "dbydy")],
  [(.ptr, "ax"), (.ptr, "bx"), (.ptr, "dbxdx"), (.ptr, "sources_i"), (.ptr, "receivers_i")],
  sec (nd ≥ 3) [(.real, "rdz")],
  sec (nd ≥ 2) [(.real, "rdy")],
  [(.real, "rdx")],
  sec (nd ≥ 3) [(.real, "rdz2")],
  sec (nd ≥ 2) [(.real, "rdy2")],
  [(.real, "rdx2"), (.real, "dt2"), (.i64, "nt"), (.i64, "n_shots")],
  sec (nd ≥ 3) [(.i64, "nz")],
  sec (nd ≥ 2) [(.i64, "ny")],
  [(.i64, "nx"), (.i64, "n_sources_per_shot"), (.i64, "n_receivers_per_shot"),
     (.i64, "step_ratio"), (.i64, "storage_mode"), (.size, "shot_bytes_uncomp"),
     (.size, "shot_bytes_comp"), (.bool, "v_requires_grad"), (.bool, "v_batched"),
     (.bool, "storage_compression"), (.i64, "start_t")],
  sec (nd ≥ 3) [(.i64, "pml_z0")],
  sec (nd ≥ 2) [(.i64, "pml_y0")],
  [(.i64, "pml_x0")],
  sec (nd ≥ 3) [(.i64, "pml_z1")],
  sec (nd ≥ 2) [(.i64, "pml_y1")],
  [(.i64, "pml_x1"), (.i64, "n_threads"), (.ptr, "unused")]]

/-- scalar.c lines 421-511: parameters of `backward`. -/
def Cpu.scalar.backward (nd : ℕ) : Sig :=
  List.flatten [
  [(.ptr, "v2dt2"), (.ptr, "grad_r"), (.ptr, "wfc"), (.ptr, "wfp")],
  sec (nd ≥ 3) [(.ptr, "psiz")],
  sec (nd ≥ 2) [(.ptr, "psiy")],
  [(.ptr, "psix")],
  sec (nd ≥ 3) [(.ptr, "psizn")],
  sec (nd ≥ 2) [(.ptr, "psiyn")],
  [(.ptr, "psixn")],
  sec (nd ≥ 3) [(.ptr, "zetaz")],
  sec (nd ≥ 2) [(.ptr, "zetay")],
  [(.ptr, "zetax")],
  sec (nd ≥ 3) [(.ptr, "zetazn")],
  sec (nd ≥ 2) [(.ptr, "zetayn")],
  [(.ptr, "zetaxn"), (.ptr, "w_store_1"), (.ptr, "w_store_1b"), (.ptr, "w_store_2"),
     (.ptr, "w_store_3"), (.ptr, "w_filenames_ptr"), (.ptr, "grad_f"), (.ptr, "grad_v"),
     (.ptr, "grad_v_thread")],
  sec (nd ≥ 3) [(.ptr, "az"), (.ptr, "bz"), (.ptr, "dbzdz")],
  sec (nd ≥ 2) [(.ptr, "ay"), (.ptr, "by"), (.ptr, "dbydy")],
  [(.ptr, "ax"), (.ptr, "bx"), (.ptr, "dbxdx"), (.ptr, "sources_i"), (.ptr, "receivers_i")],
  sec (nd ≥ 3) [(.real, "rdz")],
  sec (nd ≥ 2) [(.real, "rdy")],
  [(.real, "rdx")],
  sec (nd ≥ 3) [(.real, "rdz2")],
  sec (nd ≥ 2) [(.real, "rdy2")],
  [(.real, "rdx2"), (.i64, "nt"), (.i64, "n_shots")],
  sec (nd ≥ 3) [(.i64, "nz")],
  sec (nd ≥ 2) [(.i64, "ny")],
  [(.i64, "nx"), (.i64, "n_sources_per_shot"), (.i64, "n_receivers_per_shot"),
     (.i64, "step_ratio"), (.i64, "storage_mode"), (.size, "shot_bytes_uncomp"),
     (.size, "shot_bytes_comp"), (.bool, "v_requires_grad"), (.bool, "v_batched"),
     (.bool, "storage_compression"), (.i64, "start_t")],
  sec (nd ≥ 3) [(.i64, "pml_z0")],
  sec (nd ≥ 2) [(.i64, "pml_y0")],
  [(.i64, "pml_x0")],
  sec (nd ≥ 3) [(.i64, "pml_z1")],
  sec (nd ≥ 2) [(.i64, "pml_y1")],
  [(.i64, "pml_x1"), (.i64, "n_threads"), (.ptr, "unused")]]

/-- scalar.cu lines 440-526: parameters of `forward`. -/
def Cuda.scalar.forward (nd : ℕ) : Sig :=
  List.flatten [
  [(.ptr, "v"), (.ptr, "f"), (.ptr, "wfc"), (.ptr, "wfp")],
  sec (nd ≥ 3) [(.ptr, "psiz")],
  sec (nd ≥ 2) [(.ptr, "psiy")],
  [(.ptr, "psix")],
  sec (nd ≥ 3) [(.ptr, "psizn")],
  sec (nd ≥ 2) [(.ptr, "psiyn")],
  [(.ptr, "psixn")],
  sec (nd ≥ 3) [(.ptr, "zetaz")],
  sec (nd ≥ 2) [(.ptr, "zetay")],
  [(.ptr, "zetax"), (.ptr, "w_store_1a"), (.ptr, "w_store_1b"), (.ptr, "w_store_2"),
     (.ptr, "w_store_3"), (.ptr, "w_filenames_ptr"), (.ptr, "r")],
  sec (nd ≥ 3) [(.ptr, "az"), (.ptr, "bz"), (.ptr, "dbzdz")],
  sec (nd ≥ 2) [(.ptr, "ay"), (.ptr, "by"), (.ptr, "dbydy")],
  [(.ptr, "ax"), (.ptr, "bx"), (.ptr, "dbxdx"), (.ptr, "sources_i"), (.ptr, "receivers_i")],
  sec (nd ≥ 3) [(.real, "rdz_h")],
  sec (nd ≥ 2) [(.real, "rdy_h")],
  [(.real, "rdx_h")],
  sec (nd ≥ 3) [(.real, "rdz2_h")],
  sec (nd ≥ 2) [(.real, "rdy2_h")],
  [(.real, "rdx2_h"), (.real, "dt2_h"), (.i64, "nt"), (.i64, "n_shots_h")],
  sec (nd ≥ 3) [(.i64, "nz_h")],
  sec (nd ≥ 2) [(.i64, "ny_h")],
  [(.i64, "nx_h"), (.i64, "n_sources_per_shot_h"), (.i64, "n_receivers_per_shot_h"),
     (.i64, "step_ratio_h"), (.i64, "storage_mode"), (.size, "shot_bytes_uncomp"),
     (.size, "shot_bytes_comp"), (.bool, "v_requires_grad"), (.bool, "v_batched_h"),
     (.bool, "storage_compression"), (.i64, "start_t")],
  sec (nd ≥ 3) [(.i64, "pml_z0_h")],
  sec (nd ≥ 2) [(.i64, "pml_y0_h")],
  [(.i64, "pml_x0_h")],
  sec (nd ≥ 3) [(.i64, "pml_z1_h")],
  sec (nd ≥ 2) [(.i64, "pml_y1_h")],
  [(.i64, "pml_x1_h"), (.i64, "device"), (.ptr, "stream_compute")]]

/-- scalar.cu lines 697-790: parameters of `backward`. -/
def Cuda.scalar.backward (nd : ℕ) : Sig :=
  List.flatten [
  [(.ptr, "v2dt2"), (.ptr, "grad_r"), (.ptr, "wfc"), (.ptr, "wfp")],
  sec (nd ≥ 3) [(.ptr, "psiz")],
  sec (nd ≥ 2) [(.ptr, "psiy")],
  [(.ptr, "psix")],
  sec (nd ≥ 3) [(.ptr, "psizn")],
  sec (nd ≥ 2) [(.ptr, "psiyn")],
  [(.ptr, "psixn")],
  sec (nd ≥ 3) [(.ptr, "zetaz")],
  sec (nd ≥ 2) [(.ptr, "zetay")],
  [(.ptr, "zetax")],
  sec (nd ≥ 3) [(.ptr, "zetazn")],
  sec (nd ≥ 2) [(.ptr, "zetayn")],
  [(.ptr, "zetaxn"), (.ptr, "w_store_1a"), (.ptr, "w_store_1b"), (.ptr, "w_store_2"),
     (.ptr, "w_store_3"), (.ptr, "w_filenames_ptr"), (.ptr, "grad_f"), (.ptr, "grad_v"),
     (.ptr, "grad_v_shot")],
  sec (nd ≥ 3) [(.ptr, "az"), (.ptr, "bz"), (.ptr, "dbzdz")],
  sec (nd ≥ 2) [(.ptr, "ay"), (.ptr, "by"), (.ptr, "dbydy")],
  [(.ptr, "ax"), (.ptr, "bx"), (.ptr, "dbxdx"), (.ptr, "sources_i"), (.ptr, "receivers_i")],
  sec (nd ≥ 3) [(.real, "rdz_h")],
  sec (nd ≥ 2) [(.real, "rdy_h")],
  [(.real, "rdx_h")],
  sec (nd ≥ 3) [(.real, "rdz2_h")],
  sec (nd ≥ 2) [(.real, "rdy2_h")],
  [(.real, "rdx2_h"), (.i64, "nt"), (.i64, "n_shots_h")],
  sec (nd ≥ 3) [(.i64, "nz_h")],
  sec (nd ≥ 2) [(.i64, "ny_h")],
  [(.i64, "nx_h"), (.i64, "n_sources_per_shot_h"), (.i64, "n_receivers_per_shot_h"),
     (.i64, "step_ratio_h"), (.i64, "storage_mode"), (.size, "shot_bytes_uncomp"),
     (.size, "shot_bytes_comp"), (.bool, "v_requires_grad"), (.bool, "v_batched_h"),
     (.bool, "storage_compression"), (.i64, "start_t")],
  sec (nd ≥ 3) [(.i64, "pml_z0_h")],
  sec (nd ≥ 2) [(.i64, "pml_y0_h")],
  [(.i64, "pml_x0_h")],
  sec (nd ≥ 3) [(.i64, "pml_z1_h")],
  sec (nd ≥ 2) [(.i64, "pml_y1_h")],
  [(.i64, "pml_x1_h"), (.i64, "device"), (.ptr, "stream_compute")]]

/-- scalar_born.c lines 166-282: parameters of `forward`. -/
def Cpu.born.forward (nd : ℕ) : Sig :=
  List.flatten [
  [(.ptr, "v"), (.ptr, "scatter"), (.ptr, "f"), (.ptr, "fsc"), (.ptr, "wfc"),
     (.ptr, "wfp")],
  sec (nd ≥ 3) [(.ptr, "psiz")],
  sec (nd ≥ 2) [(.ptr, "psiy")],
  [(.ptr, "psix")],
  sec (nd ≥ 3) [(.ptr, "psizn")],
  sec (nd ≥ 2) [(.ptr, "psiyn")],
  [(.ptr, "psixn")],
  sec (nd ≥ 3) [(.ptr, "zetaz")],
  sec (nd ≥ 2) [(.ptr, "zetay")],
  [(.ptr, "zetax"), (.ptr, "wfcsc"), (.ptr, "wfpsc")],
  sec (nd ≥ 3) [(.ptr, "psizsc")],
  sec (nd ≥ 2) [(.ptr, "psiysc")],
  [(.ptr, "psixsc")],
  sec (nd ≥ 3) [(.ptr, "psiznsc")],
  sec (nd ≥ 2) [(.ptr, "psiynsc")],
  [(.ptr, "psixnsc")],
  sec (nd ≥ 3) [(.ptr, "zetazsc")],
  sec (nd ≥ 2) [(.ptr, "zetaysc")],
  [(.ptr, "zetaxsc"), (.ptr, "w_store_1"), (.ptr, "w_store_1b"), (.ptr, "w_store_2"),
     (.ptr, "w_store_3"), (.ptr, "w_filenames_ptr"), (.ptr, "wsc_store_1"),
     (.ptr, "wsc_store_1b"), (.ptr, "wsc_store_2"), (.ptr, "wsc_store_3"),
     (.ptr, "wsc_filenames_ptr"), (.ptr, "r"), (.ptr, "rsc")],
  sec (nd ≥ 3) [(.ptr, "az"), (.ptr, "bz"), (.ptr, "dbzdz")],
  sec (nd ≥ 2) [(.ptr, "ay"), (.ptr, "by"), (.ptr, "dbydy")],
  [(.ptr, "ax"), (.ptr, "bx"), (.ptr, "dbxdx"), (.ptr, "sources_i"),
     (.ptr, "receivers_i"), (.ptr, "receiverssc_i")],
  sec (nd ≥ 3) [(.real, "rdz")],
  sec (nd ≥ 2) [(.real, "rdy")],
  [(.real, "rdx")],
  sec (nd ≥ 3) [(.real, "rdz2")],
  sec (nd ≥ 2) [(.real, "rdy2")],
  [(.real, "rdx2"), (.real, "dt2"), (.i64, "nt"), (.i64, "n_shots")],
  sec (nd ≥ 3) [(.i64, "nz")],
  sec (nd ≥ 2) [(.i64, "ny")],
  [(.i64, "nx"), (.i64, "n_sources_per_shot"), (.i64, "n_receivers_per_shot"),
     (.i64, "n_receiverssc_per_shot"), (.i64, "step_ratio"), (.i64, "storage_mode"),
     (.size, "shot_bytes_uncomp"), (.size, "shot_bytes_comp"), (.bool, "v_requires_grad"),
     (.bool, "scatter_requires_grad"), (.bool, "v_batched"), (.bool, "scatter_batched"),
     (.bool, "storage_compression"), (.i64, "start_t")],
  sec (nd ≥ 3) [(.i64, "pml_z0")],
  sec (nd ≥ 2) [(.i64, "pml_y0")],
  [(.i64, "pml_x0")],
  sec (nd ≥ 3) [(.i64, "pml_z1")],
  sec (nd ≥ 2) [(.i64, "pml_y1")],
  [(.i64, "pml_x1"), (.i64, "n_threads"), (.ptr, "unused")]]

/-- scalar_born.c lines 556-690: parameters of `backward`. -/
def Cpu.born.backward (nd : ℕ) : Sig :=
  List.flatten [
  [(.ptr, "v"), (.ptr, "scatter"), (.ptr, "grad_r"), (.ptr, "grad_rsc"), (.ptr, "wfc"),
     (.ptr, "wfp")],
  sec (nd ≥ 3) [(.ptr, "psiz")],
  sec (nd ≥ 2) [(.ptr, "psiy")],
  [(.ptr, "psix")],
  sec (nd ≥ 3) [(.ptr, "psizn")],
  sec (nd ≥ 2) [(.ptr, "psiyn")],
  [(.ptr, "psixn")],
  sec (nd ≥ 3) [(.ptr, "zetaz")],
  sec (nd ≥ 2) [(.ptr, "zetay")],
  [(.ptr, "zetax")],
  sec (nd ≥ 3) [(.ptr, "zetazn")],
  sec (nd ≥ 2) [(.ptr, "zetayn")],
  [(.ptr, "zetaxn"), (.ptr, "wfcsc"), (.ptr, "wfpsc")],
  sec (nd ≥ 3) [(.ptr, "psizsc")],
  sec (nd ≥ 2) [(.ptr, "psiysc")],
  [(.ptr, "psixsc")],
  sec (nd ≥ 3) [(.ptr, "psiznsc")],
  sec (nd ≥ 2) [(.ptr, "psiynsc")],
  [(.ptr, "psixnsc")],
  sec (nd ≥ 3) [(.ptr, "zetazsc")],
  sec (nd ≥ 2) [(.ptr, "zetaysc")],
  [(.ptr, "zetaxsc")],
  sec (nd ≥ 3) [(.ptr, "zetaznsc")],
  sec (nd ≥ 2) [(.ptr, "zetaynsc")],
  [(.ptr, "zetaxnsc"), (.ptr, "w_store_1"), (.ptr, "w_store_1b"), (.ptr, "w_store_2"),
     (.ptr, "w_store_3"), (.ptr, "w_filenames_ptr"), (.ptr, "wsc_store_1"),
     (.ptr, "wsc_store_1b"), (.ptr, "wsc_store_2"), (.ptr, "wsc_store_3"),
     (.ptr, "wsc_filenames_ptr"), (.ptr, "grad_f"), (.ptr, "grad_fsc"), (.ptr, "grad_v"),
     (.ptr, "grad_scatter"), (.ptr, "grad_v_thread"), (.ptr, "grad_scatter_thread")],
  sec (nd ≥ 3) [(.ptr, "az"), (.ptr, "bz"), (.ptr, "dbzdz")],
  sec (nd ≥ 2) [(.ptr, "ay"), (.ptr, "by"), (.ptr, "dbydy")],
  [(.ptr, "ax"), (.ptr, "bx"), (.ptr, "dbxdx"), (.ptr, "sources_i"),
     (.ptr, "receivers_i"), (.ptr, "receiverssc_i")],
  sec (nd ≥ 3) [(.real, "rdz")],
  sec (nd ≥ 2) [(.real, "rdy")],
  [(.real, "rdx")],
  sec (nd ≥ 3) [(.real, "rdz2")],
  sec (nd ≥ 2) [(.real, "rdy2")],
  [(.real, "rdx2"), (.real, "dt2"), (.i64, "nt"), (.i64, "n_shots")],
  sec (nd ≥ 3) [(.i64, "nz")],
  sec (nd ≥ 2) [(.i64, "ny")],
  [(.i64, "nx"), (.i64, "n_sources_per_shot"), (.i64, "n_sourcessc_per_shot"),
     (.i64, "n_receivers_per_shot"), (.i64, "n_receiverssc_per_shot"), (.i64, "step_ratio"),
     (.i64, "storage_mode"), (.size, "shot_bytes_uncomp"), (.size, "shot_bytes_comp"),
     (.bool, "v_requires_grad"), (.bool, "scatter_requires_grad"), (.bool, "v_batched"),
     (.bool, "scatter_batched"), (.bool, "storage_compression"), (.i64, "start_t")],
  sec (nd ≥ 3) [(.i64, "pml_z0")],
  sec (nd ≥ 2) [(.i64, "pml_y0")],
  [(.i64, "pml_x0")],
  sec (nd ≥ 3) [(.i64, "pml_z1")],
  sec (nd ≥ 2) [(.i64, "pml_y1")],
  [(.i64, "pml_x1"), (.i64, "n_threads"), (.ptr, "unused")]]

/-- scalar_born.c lines 997-1091: parameters of `backward_sc`. -/
def Cpu.born.backward_sc (nd : ℕ) : Sig :=
  List.flatten [
  [(.ptr, "v"), (.ptr, "grad_rsc"), (.ptr, "wfcsc"), (.ptr, "wfpsc")],
  sec (nd ≥ 3) [(.ptr, "psizsc")],
  sec (nd ≥ 2) [(.ptr, "psiysc")],
  [(.ptr, "psixsc")],
  sec (nd ≥ 3) [(.ptr, "psiznsc")],
  sec (nd ≥ 2) [(.ptr, "psiynsc")],
  [(.ptr, "psixnsc")],
  sec (nd ≥ 3) [(.ptr, "zetazsc")],
  sec (nd ≥ 2) [(.ptr, "zetaysc")],
  [(.ptr, "zetaxsc")],
  sec (nd ≥ 3) [(.ptr, "zetaznsc")],
  sec (nd ≥ 2) [(.ptr, "zetaynsc")],
  [(.ptr, "zetaxnsc"), (.ptr, "w_store_1"), (.ptr, "w_store_1b"), (.ptr, "w_store_2"),
     (.ptr, "w_store_3"), (.ptr, "w_filenames_ptr"), (.ptr, "grad_fsc"),
     (.ptr, "grad_scatter"), (.ptr, "grad_scatter_thread")],
  sec (nd ≥ 3) [(.ptr, "az"), (.ptr, "bz"), (.ptr, "dbzdz")],
  sec (nd ≥ 2) [(.ptr, "ay"), (.ptr, "by"), (.ptr, "dbydy")],
  [(.ptr, "ax"), (.ptr, "bx"), (.ptr, "dbxdx"), (.ptr, "sources_i"),
     (.ptr, "receiverssc_i")],
  sec (nd ≥ 3) [(.real, "rdz")],
  sec (nd ≥ 2) [(.real, "rdy")],
  [(.real, "rdx")],
  sec (nd ≥ 3) [(.real, "rdz2")],
  sec (nd ≥ 2) [(.real, "rdy2")],
  [(.real, "rdx2"), (.real, "dt2"), (.i64, "nt"), (.i64, "n_shots")],
  sec (nd ≥ 3) [(.i64, "nz")],
  sec (nd ≥ 2) [(.i64, "ny")],
  [(.i64, "nx"), (.i64, "n_sourcessc_per_shot"), (.i64, "n_receiverssc_per_shot"),
     (.i64, "step_ratio"), (.i64, "storage_mode"), (.size, "shot_bytes_uncomp"),
     (.size, "shot_bytes_comp"), (.bool, "scatter_requires_grad"), (.bool, "v_batched"),
     (.bool, "scatter_batched"), (.bool, "storage_compression"), (.i64, "start_t")],
  sec (nd ≥ 3) [(.i64, "pml_z0")],
  sec (nd ≥ 2) [(.i64, "pml_y0")],
  [(.i64, "pml_x0")],
  sec (nd ≥ 3) [(.i64, "pml_z1")],
  sec (nd ≥ 2) [(.i64, "pml_y1")],
  [(.i64, "pml_x1"), (.i64, "n_threads")]]

/-- scalar_born.cu lines 824-942: parameters of `forward`. -/
def Cuda.born.forward (nd : ℕ) : Sig :=
  List.flatten [
  [(.ptr, "v"), (.ptr, "scatter"), (.ptr, "f"), (.ptr, "fsc"), (.ptr, "wfc"),
     (.ptr, "wfp")],
  sec (nd ≥ 3) [(.ptr, "psiz")],
  sec (nd ≥ 2) [(.ptr, "psiy")],
  [(.ptr, "psix")],
  sec (nd ≥ 3) [(.ptr, "psizn")],
  sec (nd ≥ 2) [(.ptr, "psiyn")],
  [(.ptr, "psixn")],
  sec (nd ≥ 3) [(.ptr, "zetaz")],
  sec (nd ≥ 2) [(.ptr, "zetay")],
  [(.ptr, "zetax"), (.ptr, "wfcsc"), (.ptr, "wfpsc")],
  sec (nd ≥ 3) [(.ptr, "psizsc")],
  sec (nd ≥ 2) [(.ptr, "psiysc")],
  [(.ptr, "psixsc")],
  sec (nd ≥ 3) [(.ptr, "psiznsc")],
  sec (nd ≥ 2) [(.ptr, "psiynsc")],
  [(.ptr, "psixnsc")],
  sec (nd ≥ 3) [(.ptr, "zetazsc")],
  sec (nd ≥ 2) [(.ptr, "zetaysc")],
  [(.ptr, "zetaxsc"), (.ptr, "w_store_1a"), (.ptr, "w_store_1b"), (.ptr, "w_store_2"),
     (.ptr, "w_store_3"), (.ptr, "w_filenames_ptr"), (.ptr, "wsc_store_1a"),
     (.ptr, "wsc_store_1b"), (.ptr, "wsc_store_2"), (.ptr, "wsc_store_3"),
     (.ptr, "wsc_filenames_ptr"), (.ptr, "r"), (.ptr, "rsc")],
  sec (nd ≥ 3) [(.ptr, "az"), (.ptr, "bz"), (.ptr, "dbzdz")],
  sec (nd ≥ 2) [(.ptr, "ay"), (.ptr, "by"), (.ptr, "dbydy")],
  [(.ptr, "ax"), (.ptr, "bx"), (.ptr, "dbxdx"), (.ptr, "sources_i"),
     (.ptr, "receivers_i"), (.ptr, "receiverssc_i")],
  sec (nd ≥ 3) [(.real, "rdz_h")],
  sec (nd ≥ 2) [(.real, "rdy_h")],
  [(.real, "rdx_h")],
  sec (nd ≥ 3) [(.real, "rdz2_h")],
  sec (nd ≥ 2) [(.real, "rdy2_h")],
  [(.real, "rdx2_h"), (.real, "dt2_h"), (.i64, "nt"), (.i64, "n_shots_h")],
  sec (nd ≥ 3) [(.i64, "nz_h")],
  sec (nd ≥ 2) [(.i64, "ny_h")],
  [(.i64, "nx_h"), (.i64, "n_sources_per_shot_h"), (.i64, "n_receivers_per_shot_h"),
     (.i64, "n_receiverssc_per_shot_h"), (.i64, "step_ratio_h"), (.i64, "storage_mode"),
     (.size, "shot_bytes_uncomp"), (.size, "shot_bytes_comp"), (.bool, "v_requires_grad"),
     (.bool, "scatter_requires_grad"), (.bool, "v_batched_h"), (.bool, "scatter_batched_h"),
     (.bool, "storage_compression"), (.i64, "start_t")],
  sec (nd ≥ 3) [(.i64, "pml_z0_h")],
  sec (nd ≥ 2) [(.i64, "pml_y0_h")],
  [(.i64, "pml_x0_h")],
  sec (nd ≥ 3) [(.i64, "pml_z1_h")],
  sec (nd ≥ 2) [(.i64, "pml_y1_h")],
  [(.i64, "pml_x1_h"), (.i64, "device"), (.ptr, "stream_compute")]]

/-- scalar_born.cu lines 1215-1353: parameters of `backward`. -/
def Cuda.born.backward (nd : ℕ) : Sig :=
  List.flatten [
  [(.ptr, "v"), (.ptr, "scatter"), (.ptr, "grad_r"), (.ptr, "grad_rsc"), (.ptr, "wfc"),
     (.ptr, "wfp")],
  sec (nd ≥ 3) [(.ptr, "psiz")],
  sec (nd ≥ 2) [(.ptr, "psiy")],
  [(.ptr, "psix")],
  sec (nd ≥ 3) [(.ptr, "psizn")],
  sec (nd ≥ 2) [(.ptr, "psiyn")],
  [(.ptr, "psixn")],
  sec (nd ≥ 3) [(.ptr, "zetaz")],
  sec (nd ≥ 2) [(.ptr, "zetay")],
  [(.ptr, "zetax")],
  sec (nd ≥ 3) [(.ptr, "zetazn")],
  sec (nd ≥ 2) [(.ptr, "zetayn")],
  [(.ptr, "zetaxn"), (.ptr, "wfcsc"), (.ptr, "wfpsc")],
  sec (nd ≥ 3) [(.ptr, "psizsc")],
  sec (nd ≥ 2) [(.ptr, "psiysc")],
  [(.ptr, "psixsc")],
  sec (nd ≥ 3) [(.ptr, "psiznsc")],
  sec (nd ≥ 2) [(.ptr, "psiynsc")],
  [(.ptr, "psixnsc")],
  sec (nd ≥ 3) [(.ptr, "zetazsc")],
  sec (nd ≥ 2) [(.ptr, "zetaysc")],
  [(.ptr, "zetaxsc")],
  sec (nd ≥ 3) [(.ptr, "zetaznsc")],
  sec (nd ≥ 2) [(.ptr, "zetaynsc")],
  [(.ptr, "zetaxnsc"), (.ptr, "w_store_1a"), (.ptr, "w_store_1b"), (.ptr, "w_store_2"),
     (.ptr, "w_store_3"), (.ptr, "w_filenames_ptr"), (.ptr, "wsc_store_1a"),
     (.ptr, "wsc_store_1b"), (.ptr, "wsc_store_2"), (.ptr, "wsc_store_3"),
     (.ptr, "wsc_filenames_ptr"), (.ptr, "grad_f"), (.ptr, "grad_fsc"), (.ptr, "grad_v"),
     (.ptr, "grad_scatter"), (.ptr, "grad_v_shot"), (.ptr, "grad_scatter_shot")],
  sec (nd ≥ 3) [(.ptr, "az"), (.ptr, "bz"), (.ptr, "dbzdz")],
  sec (nd ≥ 2) [(.ptr, "ay"), (.ptr, "by"), (.ptr, "dbydy")],
  [(.ptr, "ax"), (.ptr, "bx"), (.ptr, "dbxdx"), (.ptr, "sources_i"),
     (.ptr, "receivers_i"), (.ptr, "receiverssc_i")],
  sec (nd ≥ 3) [(.real, "rdz_h")],
  sec (nd ≥ 2) [(.real, "rdy_h")],
  [(.real, "rdx_h")],
  sec (nd ≥ 3) [(.real, "rdz2_h")],
  sec (nd ≥ 2) [(.real, "rdy2_h")],
  [(.real, "rdx2_h"), (.real, "dt2_h"), (.i64, "nt"), (.i64, "n_shots_h")],
  sec (nd ≥ 3) [(.i64, "nz_h")],
  sec (nd ≥ 2) [(.i64, "ny_h")],
  [(.i64, "nx_h"), (.i64, "n_sources_per_shot_h"), (.i64, "n_sourcessc_per_shot_h"),
     (.i64, "n_receivers_per_shot_h"), (.i64, "n_receiverssc_per_shot_h"),
     (.i64, "step_ratio_h"), (.i64, "storage_mode"), (.size, "shot_bytes_uncomp"),
     (.size, "shot_bytes_comp"), (.bool, "v_requires_grad"),
     (.bool, "scatter_requires_grad"), (.bool, "v_batched_h"), (.bool, "scatter_batched_h"),
     (.bool, "storage_compression"), (.i64, "start_t")],
  sec (nd ≥ 3) [(.i64, "pml_z0_h")],
  sec (nd ≥ 2) [(.i64, "pml_y0_h")],
  [(.i64, "pml_x0_h")],
  sec (nd ≥ 3) [(.i64, "pml_z1_h")],
  sec (nd ≥ 2) [(.i64, "pml_y1_h")],
  [(.i64, "pml_x1_h"), (.i64, "device"), (.ptr, "stream_compute")]]

/-- scalar_born.cu lines 1662-1757: parameters of `backward_sc`. -/
def Cuda.born.backward_sc (nd : ℕ) : Sig :=
  List.flatten [
  [(.ptr, "v"), (.ptr, "grad_rsc"), (.ptr, "wfcsc"), (.ptr, "wfpsc")],
  sec (nd ≥ 3) [(.ptr, "psizsc")],
  sec (nd ≥ 2) [(.ptr, "psiysc")],
  [(.ptr, "psixsc")],
  sec (nd ≥ 3) [(.ptr, "psiznsc")],
  sec (nd ≥ 2) [(.ptr, "psiynsc")],
  [(.ptr, "psixnsc")],
  sec (nd ≥ 3) [(.ptr, "zetazsc")],
  sec (nd ≥ 2) [(.ptr, "zetaysc")],
  [(.ptr, "zetaxsc")],
  sec (nd ≥ 3) [(.ptr, "zetaznsc")],
  sec (nd ≥ 2) [(.ptr, "zetaynsc")],
  [(.ptr, "zetaxnsc"), (.ptr, "w_store_1a"), (.ptr, "w_store_1b"), (.ptr, "w_store_2"),
     (.ptr, "w_store_3"), (.ptr, "w_filenames_ptr"), (.ptr, "grad_fsc"),
     (.ptr, "grad_scatter"), (.ptr, "grad_scatter_shot")],
  sec (nd ≥ 3) [(.ptr, "az"), (.ptr, "bz"), (.ptr, "dbzdz")],
  sec (nd ≥ 2) [(.ptr, "ay"), (.ptr, "by"), (.ptr, "dbydy")],
  [(.ptr, "ax"), (.ptr, "bx"), (.ptr, "dbxdx"), (.ptr, "sources_i"),
     (.ptr, "receiverssc_i")],
  sec (nd ≥ 3) [(.real, "rdz_h")],
  sec (nd ≥ 2) [(.real, "rdy_h")],
  [(.real, "rdx_h")],
  sec (nd ≥ 3) [(.real, "rdz2_h")],
  sec (nd ≥ 2) [(.real, "rdy2_h")],
  [(.real, "rdx2_h"), (.real, "dt2_h"), (.i64, "nt"), (.i64, "n_shots_h")],
  sec (nd ≥ 3) [(.i64, "nz_h")],
  sec (nd ≥ 2) [(.i64, "ny_h")],
  [(.i64, "nx_h"), (.i64, "n_sourcessc_per_shot_h"), (.i64, "n_receiverssc_per_shot_h"),
     (.i64, "step_ratio_h"), (.i64, "storage_mode"), (.size, "shot_bytes_uncomp"),
     (.size, "shot_bytes_comp"), (.bool, "scatter_requires_grad"), (.bool, "v_batched_h"),
     (.bool, "scatter_batched_h"), (.bool, "storage_compression"), (.i64, "start_t")],
  sec (nd ≥ 3) [(.i64, "pml_z0_h")],
  sec (nd ≥ 2) [(.i64, "pml_y0_h")],
  [(.i64, "pml_x0_h")],
  sec (nd ≥ 3) [(.i64, "pml_z1_h")],
  sec (nd ≥ 2) [(.i64, "pml_y1_h")],
  [(.i64, "pml_x1_h"), (.i64, "device"), (.ptr, "stream_compute")]]

/-- acoustic.c lines 117-266: parameters of `forward`. -/
def Cpu.acoustic.forward (nd : ℕ) : Sig :=
  List.flatten [
  [(.ptr, "k")],
  sec (nd ≥ 3) [(.ptr, "buoyancy_z")],
  sec (nd ≥ 2) [(.ptr, "buoyancy_y")],
  [(.ptr, "buoyancy_x"), (.ptr, "f_p")],
  sec (nd ≥ 3) [(.ptr, "f_vz")],
  sec (nd ≥ 2) [(.ptr, "f_vy")],
  [(.ptr, "f_vx"), (.ptr, "p")],
  sec (nd ≥ 3) [(.ptr, "vz")],
  sec (nd ≥ 2) [(.ptr, "vy")],
  [(.ptr, "vx")],
  sec (nd ≥ 3) [(.ptr, "phi_z")],
  sec (nd ≥ 2) [(.ptr, "phi_y")],
  [(.ptr, "phi_x")],
  sec (nd ≥ 3) [(.ptr, "psi_z")],
  sec (nd ≥ 2) [(.ptr, "psi_y")],
  [(.ptr, "psi_x"), (.ptr, "k_grad_store_1"), (.ptr, "k_grad_store_1b"),
     (.ptr, "k_grad_store_2"), (.ptr, "k_grad_store_3"), (.ptr, "k_grad_filenames_ptr")],
  sec (nd ≥ 3) [(.ptr, "bz_grad_store_1"), (.ptr, "bz_grad_store_1b"), (.ptr, "bz_grad_store_2"),
     (.ptr, "bz_grad_store_3"), (.ptr, "bz_grad_filenames_ptr")],
  sec (nd ≥ 2) [(.ptr, "by_grad_store_1"), (.ptr, "by_grad_store_1b"), (.ptr, "by_grad_store_2"),
     (.ptr, "by_grad_store_3"), (.ptr, "by_grad_filenames_ptr")],
  [(.ptr, "bx_grad_store_1"), (.ptr, "bx_grad_store_1b"), (.ptr, "bx_grad_store_2"),
     (.ptr, "bx_grad_store_3"), (.ptr, "bx_grad_filenames_ptr"), (.ptr, "r_p")],
  sec (nd ≥ 3) [(.ptr, "r_vz")],
  sec (nd ≥ 2) [(.ptr, "r_vy")],
  [(.ptr, "r_vx")],
  sec (nd ≥ 3) [(.ptr, "az"), (.ptr, "bz"), (.ptr, "azh"), (.ptr, "bzh")],
  sec (nd ≥ 2) [(.ptr, "ay"), (.ptr, "by"), (.ptr, "ayh"), (.ptr, "byh")],
  [(.ptr, "ax"), (.ptr, "bx"), (.ptr, "axh"), (.ptr, "bxh"), (.ptr, "sources_i_p")],
  sec (nd ≥ 3) [(.ptr, "sources_i_vz")],
  sec (nd ≥ 2) [(.ptr, "sources_i_vy")],
  [(.ptr, "sources_i_vx"), (.ptr, "receivers_i_p")],
  sec (nd ≥ 3) [(.ptr, "receivers_i_vz")],
  sec (nd ≥ 2) [(.ptr, "receivers_i_vy")],
  [(.ptr, "receivers_i_vx")],
  sec (nd ≥ 3) [(.real, "rdz")],
  sec (nd ≥ 2) [(.real, "rdy")],
  [(.real, "rdx"), (.real, "dt"), (.i64, "nt"), (.i64, "n_shots")],
  sec (nd ≥ 3) [(.i64, "nz")],
  sec (nd ≥ 2) [(.i64, "ny")],
  [(.i64, "nx"), (.i64, "n_sources_p_per_shot")],
  sec (nd ≥ 3) [(.i64, "n_sources_vz_per_shot")],
  sec (nd ≥ 2) [(.i64, "n_sources_vy_per_shot")],
  [(.i64, "n_sources_vx_per_shot"), (.i64, "n_receivers_p_per_shot")],
  sec (nd ≥ 3) [(.i64, "n_receivers_vz_per_shot")],
  sec (nd ≥ 2) [(.i64, "n_receivers_vy_per_shot")],
  [(.i64, "n_receivers_vx_per_shot"), (.i64, "step_ratio"), (.i64, "storage_mode"),
     (.size, "shot_bytes_uncomp"), (.size, "shot_bytes_comp"), (.bool, "k_requires_grad"),
     (.bool, "b_requires_grad"), (.bool, "k_batched"), (.bool, "b_batched"),
     (.bool, "storage_compression"), (.i64, "start_t")],
  sec (nd ≥ 3) [(.i64, "pml_z0")],
  sec (nd ≥ 2) [(.i64, "pml_y0")],
  [(.i64, "pml_x0")],
  sec (nd ≥ 3) [(.i64, "pml_z1")],
  sec (nd ≥ 2) [(.i64, "pml_y1")],
  [(.i64, "pml_x1"), (.i64, "n_threads"), (.ptr, "unused")]]

/-- acoustic.c lines 649-822: parameters of `backward`. -/
def Cpu.acoustic.backward (nd : ℕ) : Sig :=
  List.flatten [
  [(.ptr, "k")],
  sec (nd ≥ 3) [(.ptr, "buoyancy_z")],
  sec (nd ≥ 2) [(.ptr, "buoyancy_y")],
  [(.ptr, "buoyancy_x"), (.ptr, "grad_r_p")],
  sec (nd ≥ 3) [(.ptr, "grad_r_vz")],
  sec (nd ≥ 2) [(.ptr, "grad_r_vy")],
  [(.ptr, "grad_r_vx"), (.ptr, "p")],
  sec (nd ≥ 3) [(.ptr, "vz")],
  sec (nd ≥ 2) [(.ptr, "vy")],
  [(.ptr, "vx")],
  sec (nd ≥ 3) [(.ptr, "phi_z")],
  sec (nd ≥ 2) [(.ptr, "phi_y")],
  [(.ptr, "phi_x")],
  sec (nd ≥ 3) [(.ptr, "psi_z")],
  sec (nd ≥ 2) [(.ptr, "psi_y")],
  [(.ptr, "psi_x")],
  sec (nd ≥ 3) [(.ptr, "psi_zn")],
  sec (nd ≥ 2) [(.ptr, "psi_yn")],
  [(.ptr, "psi_xn"), (.ptr, "k_grad_store_1"), (.ptr, "k_grad_store_1b"),
     (.ptr, "k_grad_store_2"), (.ptr, "k_grad_store_3"), (.ptr, "k_grad_filenames_ptr")],
  sec (nd ≥ 3) [(.ptr, "bz_grad_store_1"), (.ptr, "bz_grad_store_1b"), (.ptr, "bz_grad_store_2"),
     (.ptr, "bz_grad_store_3"), (.ptr, "bz_grad_filenames_ptr")],
  sec (nd ≥ 2) [(.ptr, "by_grad_store_1"), (.ptr, "by_grad_store_1b"), (.ptr, "by_grad_store_2"),
     (.ptr, "by_grad_store_3"), (.ptr, "by_grad_filenames_ptr")],
  [(.ptr, "bx_grad_store_1"), (.ptr, "bx_grad_store_1b"), (.ptr, "bx_grad_store_2"),
     (.ptr, "bx_grad_store_3"), (.ptr, "bx_grad_filenames_ptr"), (.ptr, "grad_f_p")],
  sec (nd ≥ 3) [(.ptr, "grad_f_vz")],
  sec (nd ≥ 2) [(.ptr, "grad_f_vy")],
  [(.ptr, "grad_f_vx"), (.ptr, "grad_k")],
  sec (nd ≥ 3) [(.ptr, "grad_bz")],
  sec (nd ≥ 2) [(.ptr, "grad_by")],
  [(.ptr, "grad_bx"), (.ptr, "grad_k_thread")],
  sec (nd ≥ 3) [(.ptr, "grad_bz_thread")],
  sec (nd ≥ 2) [(.ptr, "grad_by_thread")],
  [(.ptr, "grad_bx_thread")],
  sec (nd ≥ 3) [(.ptr, "az"), (.ptr, "bz"), (.ptr, "azh"), (.ptr, "bzh")],
  sec (nd ≥ 2) [(.ptr, "ay"), (.ptr, "by"), (.ptr, "ayh"), (.ptr, "byh")],
  [(.ptr, "ax"), (.ptr, "bx"), (.ptr, "axh"), (.ptr, "bxh"), (.ptr, "sources_i_p")],
  sec (nd ≥ 3) [(.ptr, "sources_i_vz")],
  sec (nd ≥ 2) [(.ptr, "sources_i_vy")],
  [(.ptr, "sources_i_vx"), (.ptr, "receivers_i_p")],
  sec (nd ≥ 3) [(.ptr, "receivers_i_vz")],
  sec (nd ≥ 2) [(.ptr, "receivers_i_vy")],
  [(.ptr, "receivers_i_vx")],
  sec (nd ≥ 3) [(.real, "rdz")],
  sec (nd ≥ 2) [(.real, "rdy")],
  [(.real, "rdx"), (.real, "dt"), (.i64, "nt"), (.i64, "n_shots")],
  sec (nd ≥ 3) [(.i64, "nz")],
  sec (nd ≥ 2) [(.i64, "ny")],
  [(.i64, "nx"), (.i64, "n_sources_p_per_shot")],
  sec (nd ≥ 3) [(.i64, "n_sources_vz_per_shot")],
  sec (nd ≥ 2) [(.i64, "n_sources_vy_per_shot")],
  [(.i64, "n_sources_vx_per_shot"), (.i64, "n_receivers_p_per_shot")],
  sec (nd ≥ 3) [(.i64, "n_receivers_vz_per_shot")],
  sec (nd ≥ 2) [(.i64, "n_receivers_vy_per_shot")],
  [(.i64, "n_receivers_vx_per_shot"), (.i64, "step_ratio"), (.i64, "storage_mode"),
     (.size, "shot_bytes_uncomp"), (.size, "shot_bytes_comp"), (.bool, "k_requires_grad"),
     (.bool, "b_requires_grad"), (.bool, "k_batched"), (.bool, "b_batched"),
     (.bool, "storage_compression"), (.i64, "start_t")],
  sec (nd ≥ 3) [(.i64, "pml_z0")],
  sec (nd ≥ 2) [(.i64, "pml_y0")],
  [(.i64, "pml_x0")],
  sec (nd ≥ 3) [(.i64, "pml_z1")],
  sec (nd ≥ 2) [(.i64, "pml_y1")],
  [(.i64, "pml_x1"), (.i64, "n_threads"), (.ptr, "unused")]]

/-- acoustic.cu lines 698-854: parameters of `forward`. -/
def Cuda.acoustic.forward (nd : ℕ) : Sig :=
  List.flatten [
  [(.ptr, "k")],
  sec (nd ≥ 3) [(.ptr, "buoyancy_z")],
  sec (nd ≥ 2) [(.ptr, "buoyancy_y")],
  [(.ptr, "buoyancy_x"), (.ptr, "f_p")],
  sec (nd ≥ 3) [(.ptr, "f_vz")],
  sec (nd ≥ 2) [(.ptr, "f_vy")],
  [(.ptr, "f_vx"), (.ptr, "p")],
  sec (nd ≥ 3) [(.ptr, "vz")],
  sec (nd ≥ 2) [(.ptr, "vy")],
  [(.ptr, "vx")],
  sec (nd ≥ 3) [(.ptr, "phi_z")],
  sec (nd ≥ 2) [(.ptr, "phi_y")],
  [(.ptr, "phi_x")],
  sec (nd ≥ 3) [(.ptr, "psi_z")],
  sec (nd ≥ 2) [(.ptr, "psi_y")],
  [(.ptr, "psi_x"), (.ptr, "k_grad_store_1a"), (.ptr, "k_grad_store_1b"),
     (.ptr, "k_grad_store_2"), (.ptr, "k_grad_store_3"), (.ptr, "k_grad_filenames_ptr")],
  sec (nd ≥ 3) [(.ptr, "bz_grad_store_1a"), (.ptr, "bz_grad_store_1b"), (.ptr, "bz_grad_store_2"),
     (.ptr, "bz_grad_store_3"), (.ptr, "bz_grad_filenames_ptr")],
  sec (nd ≥ 2) [(.ptr, "by_grad_store_1a"), (.ptr, "by_grad_store_1b"), (.ptr, "by_grad_store_2"),
     (.ptr, "by_grad_store_3"), (.ptr, "by_grad_filenames_ptr")],
  [(.ptr, "bx_grad_store_1a"), (.ptr, "bx_grad_store_1b"), (.ptr, "bx_grad_store_2"),
     (.ptr, "bx_grad_store_3"), (.ptr, "bx_grad_filenames_ptr"), (.ptr, "r_p")],
  sec (nd ≥ 3) [(.ptr, "r_vz")],
  sec (nd ≥ 2) [(.ptr, "r_vy")],
  [(.ptr, "r_vx")],
  sec (nd ≥ 3) [(.ptr, "az"), (.ptr, "bz"), (.ptr, "azh"), (.ptr, "bzh")],
  sec (nd ≥ 2) [(.ptr, "ay"), (.ptr, "by"), (.ptr, "ayh"), (.ptr, "byh")],
  [(.ptr, "ax"), (.ptr, "bx"), (.ptr, "axh"), (.ptr, "bxh"), (.ptr, "sources_i_p")],
  sec (nd ≥ 3) [(.ptr, "sources_i_vz")],
  sec (nd ≥ 2) [(.ptr, "sources_i_vy")],
  [(.ptr, "sources_i_vx"), (.ptr, "receivers_i_p")],
  sec (nd ≥ 3) [(.ptr, "receivers_i_vz")],
  sec (nd ≥ 2) [(.ptr, "receivers_i_vy")],
  [(.ptr, "receivers_i_vx")],
  sec (nd ≥ 3) [(.real, "rdz_h")],
  sec (nd ≥ 2) [(.real, "rdy_h")],
  [(.real, "rdx_h"), (.real, "dt_h"), (.i64, "nt"), (.i64, "n_shots_h")],
  sec (nd ≥ 3) [(.i64, "nz_h")],
  sec (nd ≥ 2) [(.i64, "ny_h")],
  [(.i64, "nx_h"), (.i64, "n_sources_p_per_shot_h")],
  sec (nd ≥ 3) [(.i64, "n_sources_vz_per_shot_h")],
  sec (nd ≥ 2) [(.i64, "n_sources_vy_per_shot_h")],
  [(.i64, "n_sources_vx_per_shot_h"), (.i64, "n_receivers_p_per_shot_h")],
  sec (nd ≥ 3) [(.i64, "n_receivers_vz_per_shot_h")],
  sec (nd ≥ 2) [(.i64, "n_receivers_vy_per_shot_h")],
  [(.i64, "n_receivers_vx_per_shot_h"), (.i64, "step_ratio_h"), (.i64, "storage_mode"),
     (.size, "shot_bytes_uncomp"), (.size, "shot_bytes_comp"), (.bool, "k_requires_grad"),
     (.bool, "b_requires_grad"), (.bool, "k_batched_h"), (.bool, "b_batched_h"),
     (.bool, "storage_compression"), (.i64, "start_t")],
  sec (nd ≥ 3) [(.i64, "pml_z0_h")],
  sec (nd ≥ 2) [(.i64, "pml_y0_h")],
  [(.i64, "pml_x0_h")],
  sec (nd ≥ 3) [(.i64, "pml_z1_h")],
  sec (nd ≥ 2) [(.i64, "pml_y1_h")],
  [(.i64, "pml_x1_h"), (.i64, "device"), (.ptr, "stream_compute")]]

/-- acoustic.cu lines 1184-1364: parameters of `backward`. -/
def Cuda.acoustic.backward (nd : ℕ) : Sig :=
  List.flatten [
  [(.ptr, "k")],
  sec (nd ≥ 3) [(.ptr, "buoyancy_z")],
  sec (nd ≥ 2) [(.ptr, "buoyancy_y")],
  [(.ptr, "buoyancy_x"), (.ptr, "grad_r_p")],
  sec (nd ≥ 3) [(.ptr, "grad_r_vz")],
  sec (nd ≥ 2) [(.ptr, "grad_r_vy")],
  [(.ptr, "grad_r_vx"), (.ptr, "p")],
  sec (nd ≥ 3) [(.ptr, "vz")],
  sec (nd ≥ 2) [(.ptr, "vy")],
  [(.ptr, "vx")],
  sec (nd ≥ 3) [(.ptr, "phi_z")],
  sec (nd ≥ 2) [(.ptr, "phi_y")],
  [(.ptr, "phi_x")],
  sec (nd ≥ 3) [(.ptr, "psi_z")],
  sec (nd ≥ 2) [(.ptr, "psi_y")],
  [(.ptr, "psi_x")],
  sec (nd ≥ 3) [(.ptr, "psi_zn")],
  sec (nd ≥ 2) [(.ptr, "psi_yn")],
  [(.ptr, "psi_xn"), (.ptr, "k_grad_store_1a"), (.ptr, "k_grad_store_1b"),
     (.ptr, "k_grad_store_2"), (.ptr, "k_grad_store_3"), (.ptr, "k_grad_filenames_ptr")],
  sec (nd ≥ 3) [(.ptr, "bz_grad_store_1a"), (.ptr, "bz_grad_store_1b"), (.ptr, "bz_grad_store_2"),
     (.ptr, "bz_grad_store_3"), (.ptr, "bz_grad_filenames_ptr")],
  sec (nd ≥ 2) [(.ptr, "by_grad_store_1a"), (.ptr, "by_grad_store_1b"), (.ptr, "by_grad_store_2"),
     (.ptr, "by_grad_store_3"), (.ptr, "by_grad_filenames_ptr")],
  [(.ptr, "bx_grad_store_1a"), (.ptr, "bx_grad_store_1b"), (.ptr, "bx_grad_store_2"),
     (.ptr, "bx_grad_store_3"), (.ptr, "bx_grad_filenames_ptr"), (.ptr, "grad_f_p")],
  sec (nd ≥ 3) [(.ptr, "grad_f_vz")],
  sec (nd ≥ 2) [(.ptr, "grad_f_vy")],
  [(.ptr, "grad_f_vx"), (.ptr, "grad_k")],
  sec (nd ≥ 3) [(.ptr, "grad_bz")],
  sec (nd ≥ 2) [(.ptr, "grad_by")],
  [(.ptr, "grad_bx"), (.ptr, "grad_k_shot")],
  sec (nd ≥ 3) [(.ptr, "grad_bz_shot")],
  sec (nd ≥ 2) [(.ptr, "grad_by_shot")],
  [(.ptr, "grad_bx_shot")],
  sec (nd ≥ 3) [(.ptr, "az"), (.ptr, "bz"), (.ptr, "azh"), (.ptr, "bzh")],
  sec (nd ≥ 2) [(.ptr, "ay"), (.ptr, "by"), (.ptr, "ayh"), (.ptr, "byh")],
  [(.ptr, "ax"), (.ptr, "bx"), (.ptr, "axh"), (.ptr, "bxh"), (.ptr, "sources_i_p")],
  sec (nd ≥ 3) [(.ptr, "sources_i_vz")],
  sec (nd ≥ 2) [(.ptr, "sources_i_vy")],
  [(.ptr, "sources_i_vx"), (.ptr, "receivers_i_p")],
  sec (nd ≥ 3) [(.ptr, "receivers_i_vz")],
  sec (nd ≥ 2) [(.ptr, "receivers_i_vy")],
  [(.ptr, "receivers_i_vx")],
  sec (nd ≥ 3) [(.real, "rdz_h")],
  sec (nd ≥ 2) [(.real, "rdy_h")],
  [(.real, "rdx_h"), (.real, "dt_h"), (.i64, "nt"), (.i64, "n_shots_h")],
  sec (nd ≥ 3) [(.i64, "nz_h")],
  sec (nd ≥ 2) [(.i64, "ny_h")],
  [(.i64, "nx_h"), (.i64, "n_sources_p_per_shot_h")],
  sec (nd ≥ 3) [(.i64, "n_sources_vz_per_shot_h")],
  sec (nd ≥ 2) [(.i64, "n_sources_vy_per_shot_h")],
  [(.i64, "n_sources_vx_per_shot_h"), (.i64, "n_receivers_p_per_shot_h")],
  sec (nd ≥ 3) [(.i64, "n_receivers_vz_per_shot_h")],
  sec (nd ≥ 2) [(.i64, "n_receivers_vy_per_shot_h")],
  [(.i64, "n_receivers_vx_per_shot_h"), (.i64, "step_ratio_h"), (.i64, "storage_mode"),
     (.size, "shot_bytes_uncomp"), (.size, "shot_bytes_comp"), (.bool, "k_requires_grad"),
     (.bool, "b_requires_grad"), (.bool, "k_batched_h"), (.bool, "b_batched_h"),
     (.bool, "storage_compression"), (.i64, "start_t")],
  sec (nd ≥ 3) [(.i64, "pml_z0_h")],
  sec (nd ≥ 2) [(.i64, "pml_y0_h")],
  [(.i64, "pml_x0_h")],
  sec (nd ≥ 3) [(.i64, "pml_z1_h")],
  sec (nd ≥ 2) [(.i64, "pml_y1_h")],
  [(.i64, "pml_x1_h"), (.i64, "device"), (.ptr, "stream_compute")]]

/-- elastic.c lines 425-613: parameters of `forward`. -/
def Cpu.elastic.forward (nd : ℕ) : Sig :=
  List.flatten [
  [(.ptr, "lamb"), (.ptr, "mu")],
  sec (nd ≥ 3) [(.ptr, "mu_zy"), (.ptr, "mu_zx")],
  sec (nd ≥ 2) [(.ptr, "mu_yx")],
  sec (nd ≥ 3) [(.ptr, "buoyancy_z")],
  sec (nd ≥ 2) [(.ptr, "buoyancy_y")],
  [(.ptr, "buoyancy_x")],
  sec (nd ≥ 3) [(.ptr, "f_z")],
  sec (nd ≥ 2) [(.ptr, "f_y")],
  [(.ptr, "f_x"), (.ptr, "f_p")],
  sec (nd ≥ 3) [(.ptr, "vz"), (.ptr, "sigmazz"), (.ptr, "sigmayz"), (.ptr, "sigmaxz"), (.ptr, "m_vzz"),
     (.ptr, "m_vzy"), (.ptr, "m_vzx"), (.ptr, "m_vyz"), (.ptr, "m_vxz"),
     (.ptr, "m_sigmazzz"), (.ptr, "m_sigmayzy"), (.ptr, "m_sigmaxzx"), (.ptr, "m_sigmayzz"),
     (.ptr, "m_sigmaxzz")],
  sec (nd ≥ 2) [(.ptr, "vy"), (.ptr, "sigmayy"), (.ptr, "sigmaxy"), (.ptr, "m_vyy"), (.ptr, "m_vyx"),
     (.ptr, "m_vxy"), (.ptr, "m_sigmayyy"), (.ptr, "m_sigmaxyy"), (.ptr, "m_sigmaxyx")],
  [(.ptr, "vx"), (.ptr, "sigmaxx"), (.ptr, "m_vxx"), (.ptr, "m_sigmaxxx")],
  sec (nd ≥ 3) [(.ptr, "dvzdbuoyancy_store_1"), (.ptr, "dvzdbuoyancy_store_1b"),
     (.ptr, "dvzdbuoyancy_store_2"), (.ptr, "dvzdbuoyancy_store_3"),
     (.ptr, "dvzdbuoyancy_filenames_ptr"), (.ptr, "dvzdz_store_1"),
     (.ptr, "dvzdz_store_1b"), (.ptr, "dvzdz_store_2"), (.ptr, "dvzdz_store_3"),
     (.ptr, "dvzdz_filenames_ptr"), (.ptr, "dvzdx_plus_dvxdz_store_1"),
     (.ptr, "dvzdx_plus_dvxdz_store_1b"), (.ptr, "dvzdx_plus_dvxdz_store_2"),
     (.ptr, "dvzdx_plus_dvxdz_store_3"), (.ptr, "dvzdx_plus_dvxdz_filenames_ptr"),
     (.ptr, "dvzdy_plus_dvydz_store_1"), (.ptr, "dvzdy_plus_dvydz_store_1b"),
     (.ptr, "dvzdy_plus_dvydz_store_2"), (.ptr, "dvzdy_plus_dvydz_store_3"),
     (.ptr, "dvzdy_plus_dvydz_filenames_ptr")],
  sec (nd ≥ 2) [(.ptr, "dvydbuoyancy_store_1"), (.ptr, "dvydbuoyancy_store_1b"),
     (.ptr, "dvydbuoyancy_store_2"), (.ptr, "dvydbuoyancy_store_3"),
     (.ptr, "dvydbuoyancy_filenames_ptr"), (.ptr, "dvydy_store_1"),
     (.ptr, "dvydy_store_1b"), (.ptr, "dvydy_store_2"), (.ptr, "dvydy_store_3"),
     (.ptr, "dvydy_filenames_ptr"), (.ptr, "dvydx_plus_dvxdy_store_1"),
     (.ptr, "dvydx_plus_dvxdy_store_1b"), (.ptr, "dvydx_plus_dvxdy_store_2"),
     (.ptr, "dvydx_plus_dvxdy_store_3"), (.ptr, "dvydx_plus_dvxdy_filenames_ptr")],
  [(.ptr, "dvxdbuoyancy_store_1"), (.ptr, "dvxdbuoyancy_store_1b"),
     (.ptr, "dvxdbuoyancy_store_2"), (.ptr, "dvxdbuoyancy_store_3"),
     (.ptr, "dvxdbuoyancy_filenames_ptr"), (.ptr, "dvxdx_store_1"),
     (.ptr, "dvxdx_store_1b"), (.ptr, "dvxdx_store_2"), (.ptr, "dvxdx_store_3"),
     (.ptr, "dvxdx_filenames_ptr")],
  sec (nd ≥ 3) [(.ptr, "r_z")],
  sec (nd ≥ 2) [(.ptr, "r_y")],
  [(.ptr, "r_x"), (.ptr, "r_p")],
  sec (nd ≥ 3) [(.ptr, "az"), (.ptr, "bz"), (.ptr, "azh"), (.ptr, "bzh")],
  sec (nd ≥ 2) [(.ptr, "ay"), (.ptr, "by"), (.ptr, "ayh"), (.ptr, "byh")],
  [(.ptr, "ax"), (.ptr, "bx"), (.ptr, "axh"), (.ptr, "bxh")],
  sec (nd ≥ 3) [(.ptr, "sources_z_i")],
  sec (nd ≥ 2) [(.ptr, "sources_y_i")],
  [(.ptr, "sources_x_i"), (.ptr, "sources_p_i")],
  sec (nd ≥ 3) [(.ptr, "receivers_z_i")],
  sec (nd ≥ 2) [(.ptr, "receivers_y_i")],
  [(.ptr, "receivers_x_i"), (.ptr, "receivers_p_i")],
  sec (nd ≥ 3) [(.real, "rdz")],
  sec (nd ≥ 2) [(.real, "rdy")],
  [(.real, "rdx"), (.real, "dt"), (.i64, "nt"), (.i64, "n_shots")],
  sec (nd ≥ 3) [(.i64, "nz")],
  sec (nd ≥ 2) [(.i64, "ny")],
  [(.i64, "nx")],
  sec (nd ≥ 3) [(.i64, "n_sources_z_per_shot")],
  sec (nd ≥ 2) [(.i64, "n_sources_y_per_shot")],
  [(.i64, "n_sources_x_per_shot"), (.i64, "n_sources_p_per_shot")],
  sec (nd ≥ 3) [(.i64, "n_receivers_z_per_shot")],
  sec (nd ≥ 2) [(.i64, "n_receivers_y_per_shot")],
  [(.i64, "n_receivers_x_per_shot"), (.i64, "n_receivers_p_per_shot"),
     (.i64, "step_ratio"), (.i64, "storage_mode"), (.size, "shot_bytes_uncomp"),
     (.size, "shot_bytes_comp"), (.bool, "lamb_requires_grad"), (.bool, "mu_requires_grad"),
     (.bool, "buoyancy_requires_grad"), (.bool, "lamb_batched"), (.bool, "mu_batched"),
     (.bool, "buoyancy_batched"), (.bool, "storage_compression"), (.i64, "start_t")],
  sec (nd ≥ 3) [(.i64, "pml_z0")],
  sec (nd ≥ 2) [(.i64, "pml_y0")],
  [(.i64, "pml_x0")],
  sec (nd ≥ 3) [(.i64, "pml_z1")],
  sec (nd ≥ 2) [(.i64, "pml_y1")],
  [(.i64, "pml_x1"), (.i64, "n_threads"), (.ptr, "unused")]]

/-- elastic.c lines 1283-1517: parameters of `backward`. -/
def Cpu.elastic.backward (nd : ℕ) : Sig :=
  List.flatten [
  [(.ptr, "lamb"), (.ptr, "mu")],
  sec (nd ≥ 3) [(.ptr, "mu_zy"), (.ptr, "mu_zx")],
  sec (nd ≥ 2) [(.ptr, "mu_yx")],
  sec (nd ≥ 3) [(.ptr, "buoyancy_z")],
  sec (nd ≥ 2) [(.ptr, "buoyancy_y")],
  [(.ptr, "buoyancy_x")],
  sec (nd ≥ 3) [(.ptr, "grad_r_z")],
  sec (nd ≥ 2) [(.ptr, "grad_r_y")],
  [(.ptr, "grad_r_x"), (.ptr, "grad_r_p")],
  sec (nd ≥ 3) [(.ptr, "vz"), (.ptr, "sigmazz"), (.ptr, "sigmayz"), (.ptr, "sigmaxz"), (.ptr, "m_vzz"),
     (.ptr, "m_vzy"), (.ptr, "m_vzx"), (.ptr, "m_vyz"), (.ptr, "m_vxz"),
     (.ptr, "m_sigmazzz"), (.ptr, "m_sigmayzy"), (.ptr, "m_sigmaxzx"), (.ptr, "m_sigmayzz"),
     (.ptr, "m_sigmaxzz")],
  sec (nd ≥ 2) [(.ptr, "vy"), (.ptr, "sigmayy"), (.ptr, "sigmaxy"), (.ptr, "m_vyy"), (.ptr, "m_vyx"),
     (.ptr, "m_vxy"), (.ptr, "m_sigmayyy"), (.ptr, "m_sigmaxyy"), (.ptr, "m_sigmaxyx")],
  [(.ptr, "vx"), (.ptr, "sigmaxx"), (.ptr, "m_vxx"), (.ptr, "m_sigmaxxx")],
  sec (nd ≥ 3) [(.ptr, "m_sigmazzzn"), (.ptr, "m_sigmayzyn"), (.ptr, "m_sigmaxzxn"),
     (.ptr, "m_sigmayzzn"), (.ptr, "m_sigmaxzzn")],
  sec (nd ≥ 2) [(.ptr, "m_sigmayyyn"), (.ptr, "m_sigmaxyyn"), (.ptr, "m_sigmaxyxn")],
  [(.ptr, "m_sigmaxxxn")],
  sec (nd ≥ 3) [(.ptr, "dvzdbuoyancy_store_1"), (.ptr, "dvzdbuoyancy_store_1b"),
     (.ptr, "dvzdbuoyancy_store_2"), (.ptr, "dvzdbuoyancy_store_3"),
     (.ptr, "dvzdbuoyancy_filenames_ptr"), (.ptr, "dvzdz_store_1"),
     (.ptr, "dvzdz_store_1b"), (.ptr, "dvzdz_store_2"), (.ptr, "dvzdz_store_3"),
     (.ptr, "dvzdz_filenames_ptr"), (.ptr, "dvzdx_plus_dvxdz_store_1"),
     (.ptr, "dvzdx_plus_dvxdz_store_1b"), (.ptr, "dvzdx_plus_dvxdz_store_2"),
     (.ptr, "dvzdx_plus_dvxdz_store_3"), (.ptr, "dvzdx_plus_dvxdz_filenames_ptr"),
     (.ptr, "dvzdy_plus_dvydz_store_1"), (.ptr, "dvzdy_plus_dvydz_store_1b"),
     (.ptr, "dvzdy_plus_dvydz_store_2"), (.ptr, "dvzdy_plus_dvydz_store_3"),
     (.ptr, "dvzdy_plus_dvydz_filenames_ptr")],
  sec (nd ≥ 2) [(.ptr, "dvydbuoyancy_store_1"), (.ptr, "dvydbuoyancy_store_1b"),
     (.ptr, "dvydbuoyancy_store_2"), (.ptr, "dvydbuoyancy_store_3"),
     (.ptr, "dvydbuoyancy_filenames_ptr"), (.ptr, "dvydy_store_1"),
     (.ptr, "dvydy_store_1b"), (.ptr, "dvydy_store_2"), (.ptr, "dvydy_store_3"),
     (.ptr, "dvydy_filenames_ptr"), (.ptr, "dvydx_plus_dvxdy_store_1"),
     (.ptr, "dvydx_plus_dvxdy_store_1b"), (.ptr, "dvydx_plus_dvxdy_store_2"),
     (.ptr, "dvydx_plus_dvxdy_store_3"), (.ptr, "dvydx_plus_dvxdy_filenames_ptr")],
  [(.ptr, "dvxdbuoyancy_store_1"), (.ptr, "dvxdbuoyancy_store_1b"),
     (.ptr, "dvxdbuoyancy_store_2"), (.ptr, "dvxdbuoyancy_store_3"),
     (.ptr, "dvxdbuoyancy_filenames_ptr"), (.ptr, "dvxdx_store_1"),
     (.ptr, "dvxdx_store_1b"), (.ptr, "dvxdx_store_2"), (.ptr, "dvxdx_store_3"),
     (.ptr, "dvxdx_filenames_ptr")],
  sec (nd ≥ 3) [(.ptr, "grad_f_z")],
  sec (nd ≥ 2) [(.ptr, "grad_f_y")],
  [(.ptr, "grad_f_x"), (.ptr, "grad_f_p"), (.ptr, "grad_lamb"), (.ptr, "grad_mu")],
  sec (nd ≥ 3) [(.ptr, "grad_mu_zy"), (.ptr, "grad_mu_zx")],
  sec (nd ≥ 2) [(.ptr, "grad_mu_yx")],
  sec (nd ≥ 3) [(.ptr, "grad_buoyancy_z")],
  sec (nd ≥ 2) [(.ptr, "grad_buoyancy_y")],
  [(.ptr, "grad_buoyancy_x"), (.ptr, "grad_lamb_thread"), (.ptr, "grad_mu_thread")],
  sec (nd ≥ 3) [(.ptr, "grad_mu_zy_thread"), (.ptr, "grad_mu_zx_thread")],
  sec (nd ≥ 2) [(.ptr, "grad_mu_yx_thread")],
  sec (nd ≥ 3) [(.ptr, "grad_buoyancy_z_thread")],
  sec (nd ≥ 2) [(.ptr, "grad_buoyancy_y_thread")],
  [(.ptr, "grad_buoyancy_x_thread")],
  sec (nd ≥ 3) [(.ptr, "az"), (.ptr, "bz"), (.ptr, "azh"), (.ptr, "bzh")],
  sec (nd ≥ 2) [(.ptr, "ay"), (.ptr, "by"), (.ptr, "ayh"), (.ptr, "byh")],
  [(.ptr, "ax"), (.ptr, "bx"), (.ptr, "axh"), (.ptr, "bxh")],
  sec (nd ≥ 3) [(.ptr, "sources_z_i")],
  sec (nd ≥ 2) [(.ptr, "sources_y_i")],
  [(.ptr, "sources_x_i"), (.ptr, "sources_p_i")],
  sec (nd ≥ 3) [(.ptr, "receivers_z_i")],
  sec (nd ≥ 2) [(.ptr, "receivers_y_i")],
  [(.ptr, "receivers_x_i"), (.ptr, "receivers_p_i")],
  sec (nd ≥ 3) [(.real, "rdz")],
  sec (nd ≥ 2) [(.real, "rdy")],
  [(.real, "rdx"), (.real, "dt"), (.i64, "nt"), (.i64, "n_shots")],
  sec (nd ≥ 3) [(.i64, "nz")],
  sec (nd ≥ 2) [(.i64, "ny")],
  [(.i64, "nx")],
  sec (nd ≥ 3) [(.i64, "n_sources_z_per_shot")],
  sec (nd ≥ 2) [(.i64, "n_sources_y_per_shot")],
  [(.i64, "n_sources_x_per_shot"), (.i64, "n_sources_p_per_shot")],
  sec (nd ≥ 3) [(.i64, "n_receivers_z_per_shot")],
  sec (nd ≥ 2) [(.i64, "n_receivers_y_per_shot")],
  [(.i64, "n_receivers_x_per_shot"), (.i64, "n_receivers_p_per_shot"),
     (.i64, "step_ratio"), (.i64, "storage_mode"), (.size, "shot_bytes_uncomp"),
     (.size, "shot_bytes_comp"), (.bool, "lamb_requires_grad"), (.bool, "mu_requires_grad"),
     (.bool, "buoyancy_requires_grad"), (.bool, "lamb_batched"), (.bool, "mu_batched"),
     (.bool, "buoyancy_batched"), (.bool, "storage_compression"), (.i64, "start_t")],
  sec (nd ≥ 3) [(.i64, "pml_z0")],
  sec (nd ≥ 2) [(.i64, "pml_y0")],
  [(.i64, "pml_x0")],
  sec (nd ≥ 3) [(.i64, "pml_z1")],
  sec (nd ≥ 2) [(.i64, "pml_y1")],
  [(.i64, "pml_x1"), (.i64, "n_threads"), (.ptr, "unused")]]

/-- elastic.cu lines 1729-1924: parameters of `forward`. -/
def Cuda.elastic.forward (nd : ℕ) : Sig :=
  List.flatten [
  [(.ptr, "lamb"), (.ptr, "mu")],
  sec (nd ≥ 3) [(.ptr, "mu_zy"), (.ptr, "mu_zx")],
  sec (nd ≥ 2) [(.ptr, "mu_yx")],
  sec (nd ≥ 3) [(.ptr, "buoyancy_z")],
  sec (nd ≥ 2) [(.ptr, "buoyancy_y")],
  [(.ptr, "buoyancy_x")],
  sec (nd ≥ 3) [(.ptr, "f_z")],
  sec (nd ≥ 2) [(.ptr, "f_y")],
  [(.ptr, "f_x"), (.ptr, "f_p")],
  sec (nd ≥ 3) [(.ptr, "vz"), (.ptr, "sigmazz"), (.ptr, "sigmayz"), (.ptr, "sigmaxz"), (.ptr, "m_vzz"),
     (.ptr, "m_vzy"), (.ptr, "m_vzx"), (.ptr, "m_vyz"), (.ptr, "m_vxz"),
     (.ptr, "m_sigmazzz"), (.ptr, "m_sigmayzy"), (.ptr, "m_sigmaxzx"), (.ptr, "m_sigmayzz"),
     (.ptr, "m_sigmaxzz")],
  sec (nd ≥ 2) [(.ptr, "vy"), (.ptr, "sigmayy"), (.ptr, "sigmaxy"), (.ptr, "m_vyy"), (.ptr, "m_vyx"),
     (.ptr, "m_vxy"), (.ptr, "m_sigmayyy"), (.ptr, "m_sigmaxyy"), (.ptr, "m_sigmaxyx")],
  [(.ptr, "vx"), (.ptr, "sigmaxx"), (.ptr, "m_vxx"), (.ptr, "m_sigmaxxx")],
  sec (nd ≥ 3) [(.ptr, "dvzdbuoyancy_store_1a"), (.ptr, "dvzdbuoyancy_store_1b"),
     (.ptr, "dvzdbuoyancy_store_2"), (.ptr, "dvzdbuoyancy_store_3"),
     (.ptr, "dvzdbuoyancy_filenames_ptr"), (.ptr, "dvzdz_store_1a"),
     (.ptr, "dvzdz_store_1b"), (.ptr, "dvzdz_store_2"), (.ptr, "dvzdz_store_3"),
     (.ptr, "dvzdz_filenames_ptr"), (.ptr, "dvzdx_plus_dvxdz_store_1a"),
     (.ptr, "dvzdx_plus_dvxdz_store_1b"), (.ptr, "dvzdx_plus_dvxdz_store_2"),
     (.ptr, "dvzdx_plus_dvxdz_store_3"), (.ptr, "dvzdx_plus_dvxdz_filenames_ptr"),
     (.ptr, "dvzdy_plus_dvydz_store_1a"), (.ptr, "dvzdy_plus_dvydz_store_1b"),
     (.ptr, "dvzdy_plus_dvydz_store_2"), (.ptr, "dvzdy_plus_dvydz_store_3"),
     (.ptr, "dvzdy_plus_dvydz_filenames_ptr")],
  sec (nd ≥ 2) [(.ptr, "dvydbuoyancy_store_1a"), (.ptr, "dvydbuoyancy_store_1b"),
     (.ptr, "dvydbuoyancy_store_2"), (.ptr, "dvydbuoyancy_store_3"),
     (.ptr, "dvydbuoyancy_filenames_ptr"), (.ptr, "dvydy_store_1a"),
     (.ptr, "dvydy_store_1b"), (.ptr, "dvydy_store_2"), (.ptr, "dvydy_store_3"),
     (.ptr, "dvydy_filenames_ptr"), (.ptr, "dvydx_plus_dvxdy_store_1a"),
     (.ptr, "dvydx_plus_dvxdy_store_1b"), (.ptr, "dvydx_plus_dvxdy_store_2"),
     (.ptr, "dvydx_plus_dvxdy_store_3"), (.ptr, "dvydx_plus_dvxdy_filenames_ptr")],
  [(.ptr, "dvxdbuoyancy_store_1a"), (.ptr, "dvxdbuoyancy_store_1b"),
     (.ptr, "dvxdbuoyancy_store_2"), (.ptr, "dvxdbuoyancy_store_3"),
     (.ptr, "dvxdbuoyancy_filenames_ptr"), (.ptr, "dvxdx_store_1a"),
     (.ptr, "dvxdx_store_1b"), (.ptr, "dvxdx_store_2"), (.ptr, "dvxdx_store_3"),
     (.ptr, "dvxdx_filenames_ptr")],
  sec (nd ≥ 3) [(.ptr, "r_z")],
  sec (nd ≥ 2) [(.ptr, "r_y")],
  [(.ptr, "r_x"), (.ptr, "r_p")],
  sec (nd ≥ 3) [(.ptr, "az"), (.ptr, "bz"), (.ptr, "azh"), (.ptr, "bzh")],
  sec (nd ≥ 2) [(.ptr, "ay"), (.ptr, "by"), (.ptr, "ayh"), (.ptr, "byh")],
  [(.ptr, "ax"), (.ptr, "bx"), (.ptr, "axh"), (.ptr, "bxh")],
  sec (nd ≥ 3) [(.ptr, "sources_z_i")],
  sec (nd ≥ 2) [(.ptr, "sources_y_i")],
  [(.ptr, "sources_x_i"), (.ptr, "sources_p_i")],
  sec (nd ≥ 3) [(.ptr, "receivers_z_i")],
  sec (nd ≥ 2) [(.ptr, "receivers_y_i")],
  [(.ptr, "receivers_x_i"), (.ptr, "receivers_p_i")],
  sec (nd ≥ 3) [(.real, "rdz_h")],
  sec (nd ≥ 2) [(.real, "rdy_h")],
  [(.real, "rdx_h"), (.real, "dt_h"), (.i64, "nt"), (.i64, "n_shots_h")],
  sec (nd ≥ 3) [(.i64, "nz_h")],
  sec (nd ≥ 2) [(.i64, "ny_h")],
  [(.i64, "nx_h")],
  sec (nd ≥ 3) [(.i64, "n_sources_z_per_shot_h")],
  sec (nd ≥ 2) [(.i64, "n_sources_y_per_shot_h")],
  [(.i64, "n_sources_x_per_shot_h"), (.i64, "n_sources_p_per_shot_h")],
  sec (nd ≥ 3) [(.i64, "n_receivers_z_per_shot_h")],
  sec (nd ≥ 2) [(.i64, "n_receivers_y_per_shot_h")],
  [(.i64, "n_receivers_x_per_shot_h"), (.i64, "n_receivers_p_per_shot_h"),
     (.i64, "step_ratio_h"), (.i64, "storage_mode"), (.size, "shot_bytes_uncomp"),
     (.size, "shot_bytes_comp"), (.bool, "lamb_requires_grad"), (.bool, "mu_requires_grad"),
     (.bool, "buoyancy_requires_grad"), (.bool, "lamb_batched_h"), (.bool, "mu_batched_h"),
     (.bool, "buoyancy_batched_h"), (.bool, "storage_compression"), (.i64, "start_t")],
  sec (nd ≥ 3) [(.i64, "pml_z0_h")],
  sec (nd ≥ 2) [(.i64, "pml_y0_h")],
  [(.i64, "pml_x0_h")],
  sec (nd ≥ 3) [(.i64, "pml_z1_h")],
  sec (nd ≥ 2) [(.i64, "pml_y1_h")],
  [(.i64, "pml_x1_h"), (.i64, "device"), (.ptr, "stream_compute")]]

/-- elastic.cu lines 2326-2558: parameters of `backward`. -/
def Cuda.elastic.backward (nd : ℕ) : Sig :=
  List.flatten [
  [(.ptr, "lamb"), (.ptr, "mu")],
  sec (nd ≥ 3) [(.ptr, "mu_zy"), (.ptr, "mu_zx")],
  sec (nd ≥ 2) [(.ptr, "mu_yx")],
  sec (nd ≥ 3) [(.ptr, "buoyancy_z")],
  sec (nd ≥ 2) [(.ptr, "buoyancy_y")],
  [(.ptr, "buoyancy_x")],
  sec (nd ≥ 3) [(.ptr, "grad_r_z")],
  sec (nd ≥ 2) [(.ptr, "grad_r_y")],
  [(.ptr, "grad_r_x"), (.ptr, "grad_r_p")],
  sec (nd ≥ 3) [(.ptr, "vz"), (.ptr, "sigmazz"), (.ptr, "sigmayz"), (.ptr, "sigmaxz"), (.ptr, "m_vzz"),
     (.ptr, "m_vzy"), (.ptr, "m_vzx"), (.ptr, "m_vyz"), (.ptr, "m_vxz"),
     (.ptr, "m_sigmazzz"), (.ptr, "m_sigmayzy"), (.ptr, "m_sigmaxzx"), (.ptr, "m_sigmayzz"),
     (.ptr, "m_sigmaxzz")],
  sec (nd ≥ 2) [(.ptr, "vy"), (.ptr, "sigmayy"), (.ptr, "sigmaxy"), (.ptr, "m_vyy"), (.ptr, "m_vyx"),
     (.ptr, "m_vxy"), (.ptr, "m_sigmayyy"), (.ptr, "m_sigmaxyy"), (.ptr, "m_sigmaxyx")],
  [(.ptr, "vx"), (.ptr, "sigmaxx"), (.ptr, "m_vxx"), (.ptr, "m_sigmaxxx")],
  sec (nd ≥ 3) [(.ptr, "m_sigmazzzn"), (.ptr, "m_sigmayzyn"), (.ptr, "m_sigmaxzxn"),
     (.ptr, "m_sigmayzzn"), (.ptr, "m_sigmaxzzn")],
  sec (nd ≥ 2) [(.ptr, "m_sigmayyyn"), (.ptr, "m_sigmaxyyn"), (.ptr, "m_sigmaxyxn")],
  [(.ptr, "m_sigmaxxxn")],
  sec (nd ≥ 3) [(.ptr, "dvzdbuoyancy_store_1a"), (.ptr, "dvzdbuoyancy_store_1b"),
     (.ptr, "dvzdbuoyancy_store_2"), (.ptr, "dvzdbuoyancy_store_3"),
     (.ptr, "dvzdbuoyancy_filenames_ptr"), (.ptr, "dvzdz_store_1a"),
     (.ptr, "dvzdz_store_1b"), (.ptr, "dvzdz_store_2"), (.ptr, "dvzdz_store_3"),
     (.ptr, "dvzdz_filenames_ptr"), (.ptr, "dvzdx_plus_dvxdz_store_1a"),
     (.ptr, "dvzdx_plus_dvxdz_store_1b"), (.ptr, "dvzdx_plus_dvxdz_store_2"),
     (.ptr, "dvzdx_plus_dvxdz_store_3"), (.ptr, "dvzdx_plus_dvxdz_filenames_ptr"),
     (.ptr, "dvzdy_plus_dvydz_store_1a"), (.ptr, "dvzdy_plus_dvydz_store_1b"),
     (.ptr, "dvzdy_plus_dvydz_store_2"), (.ptr, "dvzdy_plus_dvydz_store_3"),
     (.ptr, "dvzdy_plus_dvydz_filenames_ptr")],
  sec (nd ≥ 2) [(.ptr, "dvydbuoyancy_store_1a"), (.ptr, "dvydbuoyancy_store_1b"),
     (.ptr, "dvydbuoyancy_store_2"), (.ptr, "dvydbuoyancy_store_3"),
     (.ptr, "dvydbuoyancy_filenames_ptr"), (.ptr, "dvydy_store_1a"),
     (.ptr, "dvydy_store_1b"), (.ptr, "dvydy_store_2"), (.ptr, "dvydy_store_3"),
     (.ptr, "dvydy_filenames_ptr"), (.ptr, "dvydx_plus_dvxdy_store_1a"),
     (.ptr, "dvydx_plus_dvxdy_store_1b"), (.ptr, "dvydx_plus_dvxdy_store_2"),
     (.ptr, "dvydx_plus_dvxdy_store_3"), (.ptr, "dvydx_plus_dvxdy_filenames_ptr")],
  [(.ptr, "dvxdbuoyancy_store_1a"), (.ptr, "dvxdbuoyancy_store_1b"),
     (.ptr, "dvxdbuoyancy_store_2"), (.ptr, "dvxdbuoyancy_store_3"),
     (.ptr, "dvxdbuoyancy_filenames_ptr"), (.ptr, "dvxdx_store_1a"),
     (.ptr, "dvxdx_store_1b"), (.ptr, "dvxdx_store_2"), (.ptr, "dvxdx_store_3"),
     (.ptr, "dvxdx_filenames_ptr")],
  sec (nd ≥ 3) [(.ptr, "grad_f_z")],
  sec (nd ≥ 2) [(.ptr, "grad_f_y")],
  [(.ptr, "grad_f_x"), (.ptr, "grad_f_p"), (.ptr, "grad_lamb"), (.ptr, "grad_mu")],
  sec (nd ≥ 3) [(.ptr, "grad_mu_zy"), (.ptr, "grad_mu_zx")],
  sec (nd ≥ 2) [(.ptr, "grad_mu_yx")],
  sec (nd ≥ 3) [(.ptr, "grad_buoyancy_z")],
  sec (nd ≥ 2) [(.ptr, "grad_buoyancy_y")],
  [(.ptr, "grad_buoyancy_x"), (.ptr, "grad_lamb_shot"), (.ptr, "grad_mu_shot")],
  sec (nd ≥ 3) [(.ptr, "grad_mu_zy_shot"), (.ptr, "grad_mu_zx_shot")],
  sec (nd ≥ 2) [(.ptr, "grad_mu_yx_shot")],
  sec (nd ≥ 3) [(.ptr, "grad_buoyancy_z_shot")],
  sec (nd ≥ 2) [(.ptr, "grad_buoyancy_y_shot")],
  [(.ptr, "grad_buoyancy_x_shot")],
  sec (nd ≥ 3) [(.ptr, "az"), (.ptr, "bz"), (.ptr, "azh"), (.ptr, "bzh")],
  sec (nd ≥ 2) [(.ptr, "ay"), (.ptr, "by"), (.ptr, "ayh"), (.ptr, "byh")],
  [(.ptr, "ax"), (.ptr, "bx"), (.ptr, "axh"), (.ptr, "bxh")],
  sec (nd ≥ 3) [(.ptr, "sources_z_i")],
  sec (nd ≥ 2) [(.ptr, "sources_y_i")],
  [(.ptr, "sources_x_i"), (.ptr, "sources_p_i")],
  sec (nd ≥ 3) [(.ptr, "receivers_z_i")],
  sec (nd ≥ 2) [(.ptr, "receivers_y_i")],
  [(.ptr, "receivers_x_i"), (.ptr, "receivers_p_i")],
  sec (nd ≥ 3) [(.real, "rdz_h")],
  sec (nd ≥ 2) [(.real, "rdy_h")],
  [(.real, "rdx_h"), (.real, "dt_h"), (.i64, "nt"), (.i64, "n_shots_h")],
  sec (nd ≥ 3) [(.i64, "nz_h")],
  sec (nd ≥ 2) [(.i64, "ny_h")],
  [(.i64, "nx_h")],
  sec (nd ≥ 3) [(.i64, "n_sources_z_per_shot_h")],
  sec (nd ≥ 2) [(.i64, "n_sources_y_per_shot_h")],
  [(.i64, "n_sources_x_per_shot_h"), (.i64, "n_sources_p_per_shot_h")],
  sec (nd ≥ 3) [(.i64, "n_receivers_z_per_shot_h")],
  sec (nd ≥ 2) [(.i64, "n_receivers_y_per_shot_h")],
  [(.i64, "n_receivers_x_per_shot_h"), (.i64, "n_receivers_p_per_shot_h"),
     (.i64, "step_ratio_h"), (.i64, "storage_mode"), (.size, "shot_bytes_uncomp"),
     (.size, "shot_bytes_comp"), (.bool, "lamb_requires_grad"), (.bool, "mu_requires_grad"),
     (.bool, "buoyancy_requires_grad"), (.bool, "lamb_batched_h"), (.bool, "mu_batched_h"),
     (.bool, "buoyancy_batched_h"), (.bool, "storage_compression"), (.i64, "start_t")],
  sec (nd ≥ 3) [(.i64, "pml_z0_h")],
  sec (nd ≥ 2) [(.i64, "pml_y0_h")],
  [(.i64, "pml_x0_h")],
  sec (nd ≥ 3) [(.i64, "pml_z1_h")],
  sec (nd ≥ 2) [(.i64, "pml_y1_h")],
  [(.i64, "pml_x1_h"), (.i64, "device"), (.ptr, "stream_compute")]]

end Dw.Interface
