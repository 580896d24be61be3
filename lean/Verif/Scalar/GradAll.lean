import Verif.Props.ScalarBackward

/-!
# Derivatives with respect to velocity, amplitudes and initial wavefields together
-/

namespace Dw.Scalar

variable {d ns nr : ℕ}

/-- `⟨gr, receiver data⟩ + ⟨g, final wavefields⟩` -/
noncomputable def Cfg.obj (C : Cfg d ns nr ℝ) (nt : ℕ) (gr : ℕ → Fin nr → ℝ) (g : Wavefields d ℝ)
    (f : ℕ → Fin ns → ℝ) (w : Wavefields d ℝ) : ℝ :=
  traceInner nt gr (fun t => if t < nt / C.ratio * C.ratio then
      sample C.rcv (C.run f 0 (C.start w.toInit) t).u else fun _ => 0) +
    (C.outOf (C.run f 0 (C.start w.toInit) (nt / C.ratio * C.ratio))).inner C.userCells g

/-- `w + e δ` -/
def Wavefields.plus (w : Wavefields d ℝ) (e : ℝ) (δ : Wavefields d ℝ) : Wavefields d ℝ :=
  ⟨fun c => w.wfc c + e * δ.wfc c, fun c => w.wfp c + e * δ.wfp c, fun k c => w.psi k c + e * δ.psi k c,
    fun k c => w.zeta k c + e * δ.zeta k c⟩

theorem Wavefields.inner_plus (S : Finset (Cell d)) (w δ x : Wavefields d ℝ) (e : ℝ) :
    (w.plus e δ).inner S x = w.inner S x + e * δ.inner S x := by
  simp only [Wavefields.inner, Wavefields.plus, add_mul, Finset.sum_add_distrib, mul_add, Finset.mul_sum,
    mul_assoc]
  ring

variable {C : Cfg d ns nr ℝ}

theorem Cfg.obj_eq (h : C.WF) (hr : 0 < C.ratio) (nt : ℕ) (gr : ℕ → Fin nr → ℝ) (g : Wavefields d ℝ)
    (f : ℕ → Fin ns → ℝ) (w : Wavefields d ℝ) {gd : Bool} {cb : Option ℕ} {store : ℕ → Fld d ℝ}
    {b : BwdResult d ns ℝ} (hcf : 0 < nt → 0 < cb.getD (nt / C.ratio))
    (hb : C.backward gd cb nt store gr g.toInit = .ok b) :
    C.obj nt gr g f w = traceInner nt f b.gf + w.inner C.userCells b.out := by
  obtain ⟨r, b', h1, h2, h3⟩ := C04_backward_is_adjoint h hr true gd (some 1) cb nt (fun _ => by simp) hcf f w
    gr g store
  rw [hb] at h2
  cases h2
  rw [C.forward_eq h true (some 1) nt f _ hr (fun _ => by simp)] at h1
  cases h1
  exact h3

theorem Cfg.obj_deriv (h : C.WF) (hr : C.ratio = 1) (nt : ℕ) (gr : ℕ → Fin nr → ℝ) (g : Wavefields d ℝ)
    (f : ℕ → Fin ns → ℝ) (w : Wavefields d ℝ) (δ : Fld d ℝ) {cb : Option ℕ} {b : BwdResult d ns ℝ}
    {r : FwdResult d nr ℝ} {cb' : Option ℕ} (hcf' : 0 < nt → 0 < cb'.getD nt)
    (hcf : 0 < nt → 0 < cb.getD nt) (hf : C.forward true cb nt f w.toInit = .ok r)
    (hb : C.backward true cb' nt r.store gr g.toInit = .ok b) :
    HasDerivAt (fun e => (C.pert δ e).obj nt gr g f w) (∑ c ∈ C.modelCells, δ c * b.gv c) 0 := by
  obtain ⟨r', b', h1, h2, h3⟩ := C05_velocity_gradient_exact h hr cb cb' nt hcf hcf' f w g gr δ
  have e0 := h1 0
  simp only [zero_mul, add_zero] at e0
  rw [show ({C with v := fun c => C.v c} : Cfg d ns nr ℝ) = C from rfl, hf] at e0
  have e1 : r = r' 0 := by injection e0
  rw [← e1, hb] at h2
  cases h2
  have e2 : (fun e => (C.pert δ e).obj nt gr g f w) = fun e => traceInner nt gr (r' e).rcd +
      (r' e).out.inner C.userCells g := by
    funext e
    have h4 := h1 e
    rw [show ({C with v := fun c => C.v c + e * δ c} : Cfg d ns nr ℝ) = C.pert δ e from rfl,
      (C.pert δ e).forward_eq (C.pert_wf h δ e) true cb nt f _ (by show 0 < C.ratio; omega)
        (by show 0 < nt → 0 < cb.getD (nt / C.ratio); rw [hr]; simpa using hcf)] at h4
    injection h4 with h5
    rw [← h5]
    rfl
  rw [e2]
  exact h3

/-- The amplitudes `f e` and the initial wavefields change together with the velocity. -/
theorem Cfg.obj_deriv_all (h : C.WF) (hr : C.ratio = 1) (nt : ℕ) (gr : ℕ → Fin nr → ℝ) (g : Wavefields d ℝ)
    (f : ℝ → ℕ → Fin ns → ℝ) (f' : ℕ → Fin ns → ℝ) (hf' : ∀ t i, HasDerivAt (fun e => f e t i) (f' t i) 0)
    (w δw : Wavefields d ℝ) (δ : Fld d ℝ) {cb cb' : Option ℕ} {b : BwdResult d ns ℝ} {r : FwdResult d nr ℝ}
    (hcf : 0 < nt → 0 < cb.getD nt) (hcf' : 0 < nt → 0 < cb'.getD nt)
    (hf : C.forward true cb nt (f 0) w.toInit = .ok r)
    (hb : C.backward true cb' nt r.store gr g.toInit = .ok b) :
    HasDerivAt (fun e => (C.pert δ e).obj nt gr g (f e) (w.plus e δw))
      (∑ c ∈ C.modelCells, δ c * b.gv c + traceInner nt f' b.gf + δw.inner C.userCells b.out) 0 := by
  have hr0 : 0 < C.ratio := by omega
  have hcf1 : 0 < nt → 0 < (some 1).getD (nt / C.ratio) := fun _ => by simp
  have hcf2 : 0 < nt → 0 < cb'.getD (nt / C.ratio) := by rw [hr]; simpa using hcf'
  -- the transposed operator for every velocity
  have hB : ∀ e, ∃ q, (C.pert δ e).backward true (some 1) nt (fun _ _ => 0) gr g.toInit = .ok q := fun e =>
    ⟨_, (C.pert δ e).backward_eq (C.pert_wf h δ e) true (some 1) nt _ gr _ hr0 hcf1⟩
  choose q hq using hB
  have hobj : ∀ e f w, (C.pert δ e).obj nt gr g f w = traceInner nt f (q e).gf + w.inner C.userCells (q e).out :=
    fun e f w => (C.pert δ e).obj_eq (C.pert_wf h δ e) hr0 nt gr g f w hcf1 (hq e)
  have hobj0 : ∀ f w, C.obj nt gr g f w = traceInner nt f b.gf + w.inner C.userCells b.out :=
    fun f w => C.obj_eq h hr0 nt gr g f w hcf2 hb
  have hdiff : ∀ f w, DifferentiableAt ℝ (fun e => (C.pert δ e).obj nt gr g f w) 0 := fun f w => by
    obtain ⟨r', b', h1, h2, -⟩ := C05_velocity_gradient_exact h hr (some 1) (some 1) nt (fun _ => by simp)
      (fun _ => by simp) f w g gr δ
    have e0 := h1 0
    simp only [zero_mul, add_zero] at e0
    exact (C.obj_deriv h hr nt gr g f w δ (fun _ => by simp) (fun _ => by simp) e0 h2).differentiableAt
  have hG : ∀ t i, t < nt → DifferentiableAt ℝ (fun e => (q e).gf t i) 0 := fun t i ht => by
    have := (hdiff (fun t' i' => if t' = t ∧ i' = i then 1 else 0) ⟨fun _ => 0, fun _ => 0, fun _ _ => 0, fun _ _ => 0⟩)
    refine this.congr_of_eventuallyEq (Filter.Eventually.of_forall fun e => ?_)
    simp only [hobj]
    simp only [traceInner, Wavefields.inner, zero_mul, Finset.sum_const_zero, add_zero, ite_mul, one_mul]
    rw [Finset.sum_eq_single t, Finset.sum_eq_single i]
    · simp
    · intro j _ hj; simp [hj]
    · simp
    · intro j _ hj
      exact Finset.sum_eq_zero fun i' _ => by simp [hj]
    · intro hn; exact absurd (Finset.mem_range.2 ht) hn
  have hW : DifferentiableAt ℝ (fun e => δw.inner C.userCells (q e).out) 0 := by
    refine (hdiff (fun _ _ => 0) δw).congr_of_eventuallyEq (Filter.Eventually.of_forall fun e => ?_)
    simp [hobj, traceInner]
  have hsplit : (fun e => (C.pert δ e).obj nt gr g (f e) (w.plus e δw)) = fun e =>
      (C.pert δ e).obj nt gr g (f 0) w +
        ∑ t ∈ Finset.range nt, ∑ i, (f e t i - f 0 t i) * (q e).gf t i +
        e * δw.inner C.userCells (q e).out := by
    funext e
    simp only [hobj, Wavefields.inner_plus, traceInner, sub_mul, Finset.sum_sub_distrib]
    ring
  have hq0 : ∀ t i, t < nt → (q 0).gf t i = b.gf t i := fun t i ht => by
    have e1 := hobj 0 (fun t' i' => if t' = t ∧ i' = i then 1 else 0) ⟨fun _ => 0, fun _ => 0, fun _ _ => 0, fun _ _ => 0⟩
    have e2 := hobj0 (fun t' i' => if t' = t ∧ i' = i then 1 else 0) ⟨fun _ => 0, fun _ => 0, fun _ _ => 0, fun _ _ => 0⟩
    rw [C.pert_zero] at e1
    rw [e1] at e2
    have key : ∀ x : ℕ → Fin ns → ℝ, traceInner nt (fun t' i' => if t' = t ∧ i' = i then (1 : ℝ) else 0) x = x t i := by
      intro x
      simp only [traceInner, ite_mul, one_mul, zero_mul]
      rw [Finset.sum_eq_single t, Finset.sum_eq_single i]
      · simp
      · intro j _ hj; simp [hj]
      · simp
      · intro j _ hj
        exact Finset.sum_eq_zero fun i' _ => by simp [hj]
      · intro hn; exact absurd (Finset.mem_range.2 ht) hn
    simpa [key, Wavefields.inner] using e2
  have hw0 : δw.inner C.userCells (q 0).out = δw.inner C.userCells b.out := by
    have e1 := hobj 0 (fun _ _ => 0) δw
    have e2 := hobj0 (fun _ _ => 0) δw
    rw [C.pert_zero] at e1
    rw [e1] at e2
    simpa [traceInner] using e2
  rw [hsplit]
  have hd1 := C.obj_deriv h hr nt gr g (f 0) w δ hcf' hcf hf hb
  have hd2 : HasDerivAt (fun e => ∑ t ∈ Finset.range nt, ∑ i, (f e t i - f 0 t i) * (q e).gf t i)
      (traceInner nt f' b.gf) 0 := by
    refine HasDerivAt.fun_sum fun t ht => HasDerivAt.fun_sum fun i _ => ?_
    rw [Finset.mem_range] at ht
    have := ((hf' t i).sub_const (f 0 t i)).mul (hG t i ht).hasDerivAt
    simp only [sub_self, zero_mul, add_zero, hq0 t i ht] at this
    exact this
  have hd3 : HasDerivAt (fun e => e * δw.inner C.userCells (q e).out) (δw.inner C.userCells b.out) 0 := by
    have := (hasDerivAt_id (0 : ℝ)).mul hW.hasDerivAt
    simp only [id, one_mul, zero_mul, add_zero, hw0] at this
    exact this
  exact (hd1.add hd2).add hd3

end Dw.Scalar
