import Verif.Interface.CSignatures
import Verif.Interface.Python
import Verif.Interface.PyNames
import Mathlib.Data.List.Basic
import Mathlib.Data.List.Nodup
import Mathlib.Tactic.IntervalCases

/-!
# Calls into the compiled code

A C function finds its arguments by position.  A call is right if the values passed, the
declared argument types and the parameters agree in number, kind and meaning, position by
position.
-/

namespace Dw.Interface

/-- The CUDA sources use other names for the same quantities: copies on the host have the
suffix `_h`, the first storage buffer is `…_1a`, gradients are summed per shot instead of per
thread, and the last two arguments are the device and the stream. -/
def cudaNames : List (String × String) :=
  [("b_batched_h", "b_batched"), ("buoyancy_batched_h", "buoyancy_batched"),
   ("bx_grad_store_1a", "bx_grad_store_1"), ("by_grad_store_1a", "by_grad_store_1"),
   ("bz_grad_store_1a", "bz_grad_store_1"), ("device", "n_threads"), ("dt2_h", "dt2"),
   ("dt_h", "dt"), ("dvxdbuoyancy_store_1a", "dvxdbuoyancy_store_1"),
   ("dvxdx_store_1a", "dvxdx_store_1"), ("dvydbuoyancy_store_1a", "dvydbuoyancy_store_1"),
   ("dvydx_plus_dvxdy_store_1a", "dvydx_plus_dvxdy_store_1"),
   ("dvydy_store_1a", "dvydy_store_1"), ("dvzdbuoyancy_store_1a", "dvzdbuoyancy_store_1"),
   ("dvzdx_plus_dvxdz_store_1a", "dvzdx_plus_dvxdz_store_1"),
   ("dvzdy_plus_dvydz_store_1a", "dvzdy_plus_dvydz_store_1"),
   ("dvzdz_store_1a", "dvzdz_store_1"), ("grad_buoyancy_x_shot", "grad_buoyancy_x_thread"),
   ("grad_buoyancy_y_shot", "grad_buoyancy_y_thread"),
   ("grad_buoyancy_z_shot", "grad_buoyancy_z_thread"), ("grad_bx_shot", "grad_bx_thread"),
   ("grad_by_shot", "grad_by_thread"), ("grad_bz_shot", "grad_bz_thread"),
   ("grad_k_shot", "grad_k_thread"), ("grad_lamb_shot", "grad_lamb_thread"),
   ("grad_mu_shot", "grad_mu_thread"), ("grad_mu_yx_shot", "grad_mu_yx_thread"),
   ("grad_mu_zx_shot", "grad_mu_zx_thread"), ("grad_mu_zy_shot", "grad_mu_zy_thread"),
   ("grad_scatter_shot", "grad_scatter_thread"), ("grad_v_shot", "grad_v_thread"),
   ("k_batched_h", "k_batched"), ("k_grad_store_1a", "k_grad_store_1"),
   ("lamb_batched_h", "lamb_batched"), ("mu_batched_h", "mu_batched"),
   ("n_receivers_p_per_shot_h", "n_receivers_p_per_shot"),
   ("n_receivers_per_shot_h", "n_receivers_per_shot"),
   ("n_receivers_vx_per_shot_h", "n_receivers_vx_per_shot"),
   ("n_receivers_vy_per_shot_h", "n_receivers_vy_per_shot"),
   ("n_receivers_vz_per_shot_h", "n_receivers_vz_per_shot"),
   ("n_receivers_x_per_shot_h", "n_receivers_x_per_shot"),
   ("n_receivers_y_per_shot_h", "n_receivers_y_per_shot"),
   ("n_receivers_z_per_shot_h", "n_receivers_z_per_shot"),
   ("n_receiverssc_per_shot_h", "n_receiverssc_per_shot"), ("n_shots_h", "n_shots"),
   ("n_sources_p_per_shot_h", "n_sources_p_per_shot"),
   ("n_sources_per_shot_h", "n_sources_per_shot"),
   ("n_sources_vx_per_shot_h", "n_sources_vx_per_shot"),
   ("n_sources_vy_per_shot_h", "n_sources_vy_per_shot"),
   ("n_sources_vz_per_shot_h", "n_sources_vz_per_shot"),
   ("n_sources_x_per_shot_h", "n_sources_x_per_shot"),
   ("n_sources_y_per_shot_h", "n_sources_y_per_shot"),
   ("n_sources_z_per_shot_h", "n_sources_z_per_shot"),
   ("n_sourcessc_per_shot_h", "n_sourcessc_per_shot"), ("nx_h", "nx"), ("ny_h", "ny"),
   ("nz_h", "nz"), ("pml_x0_h", "pml_x0"), ("pml_x1_h", "pml_x1"), ("pml_y0_h", "pml_y0"),
   ("pml_y1_h", "pml_y1"), ("pml_z0_h", "pml_z0"), ("pml_z1_h", "pml_z1"), ("rdx2_h", "rdx2"),
   ("rdx_h", "rdx"), ("rdy2_h", "rdy2"), ("rdy_h", "rdy"), ("rdz2_h", "rdz2"),
   ("rdz_h", "rdz"), ("scatter_batched_h", "scatter_batched"), ("step_ratio_h", "step_ratio"),
   ("stream_compute", "unused"), ("v_batched_h", "v_batched"), ("w_store_1a", "w_store_1"),
   ("wsc_store_1a", "wsc_store_1")]

/-- Name of the quantity held by a parameter of a CUDA function. -/
def cudaQuantity (n : String) : String := (cudaNames.lookup n).getD n

/-- What a correct call of a function with parameters `params` looks like, if parameter `n`
is to receive quantity `q n`: as many arguments as parameters, of the declared kinds, the
kinds of the parameters, and each parameter receives its quantity. -/
structure Matches (call : Sig) (argtypes : List Kind) (params : Sig) (q : String → String) :
    Prop where
  count : call.length = params.length
  declared : call.map Prod.fst = argtypes
  kinds : params.map Prod.fst = argtypes
  quantity : ∀ (i : ℕ) (p : Kind × String), params[i]? = some p → call[i]? = some (p.1, q p.2)

/-- Decision procedure for `Matches` in one to three dimensions. -/
private def check (call : ℕ → Sig) (argtypes : ℕ → List Kind) (params : ℕ → Sig)
    (q : String → String) : Bool :=
  [1, 2, 3].all fun nd => decide ((call nd).map Prod.fst = argtypes nd) &&
    decide (call nd = (params nd).map fun p => (p.1, q p.2))

private theorem matches_of {call : ℕ → Sig} {argtypes : ℕ → List Kind} {params : ℕ → Sig}
    {q : String → String} (h : check call argtypes params q = true) {nd : ℕ} (h1 : 1 ≤ nd)
    (h3 : nd ≤ 3) : Matches (call nd) (argtypes nd) (params nd) q := by
  have hc : (call nd).map Prod.fst = argtypes nd ∧
      call nd = (params nd).map fun p => (p.1, q p.2) := by
    rw [check, List.all_eq_true] at h
    have := h nd (by simp; omega)
    rwa [Bool.and_eq_true, decide_eq_true_eq, decide_eq_true_eq] at this
  exact
  { count := by rw [hc.2]; simp
    declared := hc.1
    kinds := by rw [← hc.1, hc.2]; simp
    quantity := by
      intro i p hp
      rw [hc.2]
      simp [hp] }

/-- The functions of the CPU library, apart from `backward_sc` of the Born propagator: every
call, in every number of dimensions, is right.  `_partial`: the full statement would include
`backward_sc`, for which it is false (`C43_fails_for_backward_sc`). -/
theorem C43_cpu_calls_partial (nd : ℕ) (h1 : 1 ≤ nd) (h3 : nd ≤ 3) :
    Matches (Call.scalar.forward nd) (Template.scalar.forward nd) (Cpu.scalar.forward nd) id ∧
    Matches (Call.scalar.backward nd) (Template.scalar.backward nd) (Cpu.scalar.backward nd) id ∧
    Matches (Call.born.forward nd) (Template.born.forward nd) (Cpu.born.forward nd) id ∧
    Matches (Call.born.backward nd) (Template.born.backward nd) (Cpu.born.backward nd) id ∧
    Matches (Call.double.forward nd) (Template.born.forward nd) (Cpu.born.forward nd) id ∧
    Matches (Call.double.backward nd) (Template.born.backward nd) (Cpu.born.backward nd) id ∧
    Matches (Call.acoustic.forward nd) (Template.acoustic.forward nd)
      (Cpu.acoustic.forward nd) id ∧
    Matches (Call.acoustic.backward nd) (Template.acoustic.backward nd)
      (Cpu.acoustic.backward nd) id ∧
    Matches (Call.elastic.forward nd) (Template.elastic.forward nd) (Cpu.elastic.forward nd) id ∧
    Matches (Call.elastic.backward nd) (Template.elastic.backward nd)
      (Cpu.elastic.backward nd) id := by
  refine ⟨matches_of ?_ h1 h3, matches_of ?_ h1 h3, matches_of ?_ h1 h3, matches_of ?_ h1 h3,
    matches_of ?_ h1 h3, matches_of ?_ h1 h3, matches_of ?_ h1 h3, matches_of ?_ h1 h3,
    matches_of ?_ h1 h3, matches_of ?_ h1 h3⟩ <;> decide +kernel

/-- The functions of the CUDA library: every call, in every number of dimensions, is right. -/
theorem C43_cuda_calls (nd : ℕ) (h1 : 1 ≤ nd) (h3 : nd ≤ 3) :
    Matches (Call.scalar.forward nd) (Template.scalar.forward nd) (Cuda.scalar.forward nd)
      cudaQuantity ∧
    Matches (Call.scalar.backward nd) (Template.scalar.backward nd) (Cuda.scalar.backward nd)
      cudaQuantity ∧
    Matches (Call.born.forward nd) (Template.born.forward nd) (Cuda.born.forward nd)
      cudaQuantity ∧
    Matches (Call.born.backward nd) (Template.born.backward nd) (Cuda.born.backward nd)
      cudaQuantity ∧
    Matches (Call.born.backward_sc nd) (Template.born.backward_sc nd) (Cuda.born.backward_sc nd)
      cudaQuantity ∧
    Matches (Call.double.forward nd) (Template.born.forward nd) (Cuda.born.forward nd)
      cudaQuantity ∧
    Matches (Call.double.backward nd) (Template.born.backward nd) (Cuda.born.backward nd)
      cudaQuantity ∧
    Matches (Call.acoustic.forward nd) (Template.acoustic.forward nd) (Cuda.acoustic.forward nd)
      cudaQuantity ∧
    Matches (Call.acoustic.backward nd) (Template.acoustic.backward nd)
      (Cuda.acoustic.backward nd) cudaQuantity ∧
    Matches (Call.elastic.forward nd) (Template.elastic.forward nd) (Cuda.elastic.forward nd)
      cudaQuantity ∧
    Matches (Call.elastic.backward nd) (Template.elastic.backward nd)
      (Cuda.elastic.backward nd) cudaQuantity := by
  refine ⟨matches_of ?_ h1 h3, matches_of ?_ h1 h3, matches_of ?_ h1 h3, matches_of ?_ h1 h3,
    matches_of ?_ h1 h3, matches_of ?_ h1 h3, matches_of ?_ h1 h3, matches_of ?_ h1 h3,
    matches_of ?_ h1 h3, matches_of ?_ h1 h3, matches_of ?_ h1 h3⟩ <;> decide +kernel

/-- The CPU function `backward_sc` of the Born propagator has one parameter fewer than Python
declares and passes: the stream argument has no parameter.  All other arguments are right. -/
theorem C43_fails_for_backward_sc (nd : ℕ) (h1 : 1 ≤ nd) (h3 : nd ≤ 3) :
    ¬ Matches (Call.born.backward_sc nd) (Template.born.backward_sc nd)
      (Cpu.born.backward_sc nd) id ∧
    Call.born.backward_sc nd = Cpu.born.backward_sc nd ++ [(.ptr, "unused")] ∧
    (Call.born.backward_sc nd).map Prod.fst = Template.born.backward_sc nd := by
  have h : Call.born.backward_sc nd = Cpu.born.backward_sc nd ++ [(.ptr, "unused")] := by
    interval_cases nd <;> decide +kernel
  refine ⟨fun hm => ?_, h, by interval_cases nd <;> decide +kernel⟩
  have := hm.count
  rw [h] at this
  simp at this

example : (Cpu.scalar.forward 2).length = 49 ∧ (Cuda.elastic.backward 3).length = 170 := by
  decide +kernel

/-! ## Names shown to callbacks -/

private theorem lookup_zip {α : Type*} :
    ∀ (names : List String) (values : List α) (i : ℕ) (n : String), names.Nodup →
      names[i]? = some n → (names.zip values).lookup n = values[i]?
  | [], _, i, n, _, h => by simp at h
  | m :: names, [], i, n, _, _ => by simp
  | m :: names, v :: values, 0, n, _, h => by
    simp only [List.getElem?_cons_zero, Option.some.injEq] at h
    simp [h]
  | m :: names, v :: values, i + 1, n, hn, h => by
    simp only [List.getElem?_cons_succ] at h ⊢
    have hne : (n == m) = false := by
      have := (List.nodup_cons.1 hn).1
      have hm := List.mem_of_getElem? h
      simp only [beq_eq_false_iff_ne, ne_eq]
      rintro rfl
      exact this hm
    rw [List.zip_cons_cons, List.lookup_cons, hne]
    exact lookup_zip names values i n (List.nodup_cons.1 hn).2 h

/-- The fields of the elastic propagator shown to a forward callback: the field with internal
position `i` is found under its own name, in any number of dimensions. -/
theorem C53_forward_fields {α : Type*} (nd : ℕ) (h1 : 1 ≤ nd) (h3 : nd ≤ 3) (values : List α)
    (i : ℕ) (n : String) (hi : (elasticFields nd)[i]? = some n) :
    elasticForwardFields nd values n = values[i]? := by
  refine lookup_zip _ _ _ _ ?_ ?_
  · interval_cases nd <;> decide +kernel
  · have : elasticFieldNames nd = elasticFields nd := by interval_cases nd <;> rfl
    rw [this]; exact hi

/-- … and to a backward callback, apart from the last one.  `_partial`: the full statement would
include the last field, for which it is false (`C53_fails_for_last_field`). -/
theorem C53_backward_fields_partial {α : Type*} (nd : ℕ) (h1 : 1 ≤ nd) (h3 : nd ≤ 3)
    (values : List α) (hv : values.length = (elasticFields nd).length)
    (i : ℕ) (n : String) (hi : (elasticFields nd)[i]? = some n)
    (hl : i + 1 < (elasticFields nd).length) :
    elasticBackwardFields nd values n = values[i]? := by
  have h : elasticBackwardFields nd values n = values.dropLast[i]? := by
    refine lookup_zip _ _ _ _ ?_ ?_
    · interval_cases nd <;> decide +kernel
    · have : elasticFieldNames nd = elasticFields nd := by interval_cases nd <;> rfl
      rw [this]; exact hi
  rw [h, List.getElem?_dropLast, if_pos (by omega)]

/-- The last field `m_sigmaxxx` is missing from backward callbacks, in any number of
dimensions. -/
theorem C53_fails_for_last_field {α : Type*} (nd : ℕ) (h1 : 1 ≤ nd) (h3 : nd ≤ 3)
    (values : List α) (hv : values.length = (elasticFields nd).length) :
    elasticBackwardFields nd values "m_sigmaxxx" = none := by
  obtain ⟨i, hi, hl⟩ : ∃ i, (elasticFields nd)[i]? = some "m_sigmaxxx" ∧
      i + 1 = (elasticFields nd).length := by
    interval_cases nd
    · exact ⟨3, by decide +kernel, by decide +kernel⟩
    · exact ⟨12, by decide +kernel, by decide +kernel⟩
    · exact ⟨26, by decide +kernel, by decide +kernel⟩
  have h : elasticBackwardFields nd values "m_sigmaxxx" = values.dropLast[i]? := by
    refine lookup_zip _ _ _ _ ?_ ?_
    · interval_cases nd <;> decide +kernel
    · have : elasticFieldNames nd = elasticFields nd := by interval_cases nd <;> rfl
      rw [this]; exact hi
  rw [h, List.getElem?_dropLast, if_neg (by omega)]

/-- The models (and their gradients) shown to callbacks, in one and two dimensions: each is
found under its own name.  `_partial`: false in three dimensions (`C53_fails_for_3d_models`). -/
theorem C53_models_partial {α : Type*} (nd : ℕ) (h1 : 1 ≤ nd) (h2 : nd ≤ 2) (values : List α)
    (i : ℕ) (n : String) (hi : (elasticModels nd)[i]? = some n) :
    elasticCallbackModels nd values n = values[i]? := by
  refine lookup_zip _ _ _ _ ?_ ?_
  · interval_cases nd <;> decide +kernel
  · have : elasticModelNames nd = elasticModels nd := by interval_cases nd <;> rfl
    rw [this]; exact hi

/-- In three dimensions callbacks find the shear modulus of the zy faces under the name of the
yx faces, that of the zx faces under the name of the buoyancy in y, that of the yx faces under
the name of the buoyancy in x, and no buoyancy at all. -/
theorem C53_fails_for_3d_models :
    elasticCallbackModels 3 (elasticModels 3) "mu_yx" = some "mu_zy" ∧
    elasticCallbackModels 3 (elasticModels 3) "buoyancy_y" = some "mu_zx" ∧
    elasticCallbackModels 3 (elasticModels 3) "buoyancy_x" = some "mu_yx" ∧
    (∀ n, elasticCallbackModels 3 (elasticModels 3) n ≠ some "buoyancy_x") ∧
    elasticCallbackModels 3 (elasticModels 3) "buoyancy_z" = none := by
  refine ⟨by decide +kernel, by decide +kernel, by decide +kernel, fun n hn => ?_,
    by decide +kernel⟩
  have : ∀ (l : List (String × String)) (n v : String), l.lookup n = some v →
      v ∈ l.map Prod.snd := by
    intro l n v h
    induction l with
    | nil => simp at h
    | cons p l ih =>
      obtain ⟨a, b⟩ := p
      rw [List.lookup_cons] at h
      split at h
      · simp_all
      · exact List.mem_cons_of_mem _ (ih h)
  have hm := this _ n _ hn
  revert hm
  decide +kernel

example : elasticForwardFields 2 (List.range 13) "vx" = some 9 ∧
    elasticBackwardFields 2 (List.range 13) "vx" = some 9 ∧
    elasticCallbackModels 2 (List.range 5) "buoyancy_x" = some 4 := by decide +kernel

/-! ## Outputs and double buffers of the elastic propagator -/

/-- The documented order of the final wavefields (elastic.py lines 576-605). -/
def documented (nd : ℕ) : List String :=
  if nd = 3 then ["vz", "vy", "vx", "sigmazz", "sigmayz", "sigmaxz", "sigmayy", "sigmaxy",
    "sigmaxx", "m_vzz", "m_vzy", "m_vzx", "m_vyz", "m_vxz", "m_vyy", "m_vyx", "m_vxy", "m_vxx",
    "m_sigmazzz", "m_sigmayzy", "m_sigmaxzx", "m_sigmayzz", "m_sigmaxzz", "m_sigmayyy",
    "m_sigmaxyy", "m_sigmaxyx", "m_sigmaxxx"]
  else if nd = 2 then ["vy", "vx", "sigmayy", "sigmaxy", "sigmaxx", "m_vyy", "m_vyx", "m_vxy",
    "m_vxx", "m_sigmayyy", "m_sigmaxyy", "m_sigmaxyx", "m_sigmaxxx"]
  else ["vx", "sigmaxx", "m_vxx", "m_sigmaxxx"]

/-- The value of the field called `n`, if `values` are the fields in internal order. -/
def valueOf {α : Type*} (nd : ℕ) (values : List α) (n : String) : Option α :=
  values[(elasticFields nd).idxOf n]?

/-- The final wavefields are returned in the documented order. -/
theorem C54_documented_order {α : Type*} (nd : ℕ) (h1 : 1 ≤ nd) (h3 : nd ≤ 3) (values : List α)
    (hv : values.length = (elasticFields nd).length) :
    elasticReorder nd values = (documented nd).map (valueOf nd values) := by
  have key : ∀ idx : List ℕ, (documented nd).map ((elasticFields nd).idxOf ·) = idx →
      (documented nd).map (valueOf nd values) = idx.map (values[·]?) := by
    rintro _ rfl
    simp [valueOf, Function.comp_def]
  interval_cases nd
  · rw [key [0, 1, 2, 3] (by decide +kernel)]
    have h4 : values.length = 4 := hv
    match values, h4 with
    | [a, b, c, d], _ => rfl
  · rw [key [0, 9, 1, 2, 10, 3, 4, 5, 11, 6, 7, 8, 12] (by decide +kernel)]
    rfl
  · rw [key [0, 14, 23, 1, 2, 3, 15, 16, 24, 4, 5, 6, 7, 8, 17, 18, 19, 25, 9, 10, 11, 12, 13,
      20, 21, 22, 26] (by decide +kernel)]
    rfl

/-- The fields of the backward pass that have a second buffer, with the name of that buffer. -/
def buffers : List (String × String) :=
  [("m_sigmazzz", "m_sigmazzzn"), ("m_sigmayzy", "m_sigmayzyn"), ("m_sigmaxzx", "m_sigmaxzxn"),
   ("m_sigmayzz", "m_sigmayzzn"), ("m_sigmaxzz", "m_sigmaxzzn"), ("m_sigmayyy", "m_sigmayyyn"),
   ("m_sigmaxyy", "m_sigmaxyyn"), ("m_sigmaxyx", "m_sigmaxyxn"), ("m_sigmaxxx", "m_sigmaxxxn")]

/-- Position, among the second buffers, of the second buffer of field `i` (if it has one). -/
def partner (nd i : ℕ) : Option ℕ :=
  (((elasticFields nd)[i]?).bind (buffers.lookup ·)).map ((elasticAux nd).idxOf ·)

private theorem swap_map {α β : Type*} (f : α → β) (s : List α × List α) (a b c e : ℕ) :
    swap (s.1.map f, s.2.map f) a b c e =
      ((swap s a b c e).1.map f, (swap s a b c e).2.map f) := by
  simp [swap, setSlice, slice, List.map_take, List.map_drop]

private theorem elasticSwap_map {α β : Type*} (f : α → β) (nd : ℕ) (x y : List α) :
    elasticSwap nd (x.map f, y.map f) =
      ((elasticSwap nd (x, y)).1.map f, (elasticSwap nd (x, y)).2.map f) := by
  unfold elasticSwap
  split
  · simp only [swap_map f (x, y), swap_map f]
  · split
    · simp only [swap_map f (x, y), swap_map f]
    · simp only [swap_map f (x, y)]

private theorem eq_map_range {α : Type*} (l : List α) (m : ℕ) (f : ℕ → Option α)
    (h : ∀ i, i < l.length → f (m + i) = l[i]?) :
    l.map some = ((List.range l.length).map (m + ·)).map f := by
  apply List.ext_getElem?
  intro i
  by_cases hi : i < l.length
  · simp [hi, h i hi]
  · simp [hi]

/-- After an odd number of backward steps each double-buffered field is exchanged with its own
second buffer, and all other fields stay in place. -/
theorem C54_buffers_exchanged {α : Type*} (nd : ℕ) (h1 : 1 ≤ nd) (h3 : nd ≤ 3) (g x : List α)
    (hg : g.length = (elasticFields nd).length) (hx : x.length = (elasticAux nd).length)
    (i : ℕ) (hi : i < g.length) :
    (∀ j, partner nd i = some j →
      (elasticSwap nd (g, x)).1[i]? = x[j]? ∧ (elasticSwap nd (g, x)).2[j]? = g[i]? ∧
        j < x.length) ∧
    (partner nd i = none → (elasticSwap nd (g, x)).1[i]? = g[i]?) := by
  have hf : ∀ k (hk : k < g.length), (g ++ x)[k]? = g[k]? := fun k hk =>
    List.getElem?_append_left hk
  have hG := eq_map_range g 0 (fun k => (g ++ x)[k]?) (by intro k hk; simpa using hf k hk)
  have hX := eq_map_range x g.length (fun k => (g ++ x)[k]?)
    (by
      intro k _
      rw [List.getElem?_append_right (Nat.le_add_right _ _), Nat.add_sub_cancel_left])
  have hm := elasticSwap_map (some : α → Option α) nd g x
  rw [hG, hX, elasticSwap_map] at hm
  rw [hg, hx] at hm
  have key : ∀ i < (elasticFields nd).length,
      (∀ j < (elasticAux nd).length, partner nd i = some j →
        (elasticSwap nd ((List.range (elasticFields nd).length).map (0 + ·),
          (List.range (elasticAux nd).length).map ((elasticFields nd).length + ·))).1[i]?
            = some ((elasticFields nd).length + j) ∧
        (elasticSwap nd ((List.range (elasticFields nd).length).map (0 + ·),
          (List.range (elasticAux nd).length).map ((elasticFields nd).length + ·))).2[j]?
            = some i) ∧
      (partner nd i = none →
        (elasticSwap nd ((List.range (elasticFields nd).length).map (0 + ·),
          (List.range (elasticAux nd).length).map ((elasticFields nd).length + ·))).1[i]?
            = some i) := by
    interval_cases nd <;> decide +kernel
  have hp : ∀ i < (elasticFields nd).length, ∀ j ∈ partner nd i,
      j < (elasticAux nd).length := by
    interval_cases nd <;> decide +kernel
  have e1 : ∀ k, ((elasticSwap nd (g, x)).1.map some)[k]? =
      ((elasticSwap nd (g, x)).1[k]?).map some := fun _ => List.getElem?_map
  have e2 : ∀ k, ((elasticSwap nd (g, x)).2.map some)[k]? =
      ((elasticSwap nd (g, x)).2[k]?).map some := fun _ => List.getElem?_map
  have inj : ∀ a b : Option α, b.isSome → a.map some = some b → a = b := by
    intro a b hb h
    cases a <;> simp_all
  obtain ⟨k1, k2⟩ := key i (hg ▸ hi)
  constructor
  · intro j hj
    have hjx : j < (elasticAux nd).length := hp i (hg ▸ hi) j hj
    obtain ⟨a, b⟩ := k1 j hjx hj
    refine ⟨inj _ _ (by simp [hx, hjx]) ?_, inj _ _ (by simp [hi]) ?_, hx ▸ hjx⟩
    · rw [← e1, ← (Prod.mk.inj hm).1, List.getElem?_map, a]
      simp only [← hg, Option.map_some, Option.some.injEq]
      rw [List.getElem?_append_right (Nat.le_add_right _ _), Nat.add_sub_cancel_left]
    · rw [← e2, ← (Prod.mk.inj hm).2, List.getElem?_map, b]
      simp [hf i hi]
  · intro hn
    refine inj _ _ (by simp [hi]) ?_
    rw [← e1, ← (Prod.mk.inj hm).1, List.getElem?_map, k2 hn]
    simp [hf i hi]

example : partner 2 6 = some 0 ∧ partner 2 9 = none ∧
    (elasticSwap 2 (List.range 13, [20, 21, 22, 23])).1 =
      [0, 1, 2, 3, 4, 5, 20, 21, 22, 9, 10, 11, 23] := by decide +kernel

end Dw.Interface
