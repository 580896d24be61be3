import Verif.Props.Acoustic

/-!
# Derivatives of `acoustic` along curves

Bulk modulus, buoyancies, source amplitudes and initial wavefields change together, the models and amplitudes
along any differentiable curve: the bulk modulus and the buoyancies are not linear in velocity and density.
-/

namespace Dw.Acoustic

open Dw.Scalar (inject sample traceInner traceInner_of_lt)

variable {d np mp : ℕ} {nv mv : Fin d → ℕ}

/-- The configuration with other models. -/
def Cfg.withM (C : Cfg d np mp nv mv ℝ) (K : Fld d ℝ) (B : Fin d → Fld d ℝ) : Cfg d np mp nv mv ℝ :=
  {C with K := K, B := B}

/-- `⟨grP, pressure data⟩ + ⟨grV, velocity data⟩ + ⟨g, final wavefields⟩` -/
noncomputable def Cfg.obj (C : Cfg d np mp nv mv ℝ) (nt : ℕ) (grP : ℕ → Fin mp → ℝ)
    (grV : (k : Fin d) → ℕ → Fin (mv k) → ℝ) (g : Wavefields d ℝ) (fp : ℕ → Fin np → ℝ)
    (fv : (k : Fin d) → ℕ → Fin (nv k) → ℝ) (w : Wavefields d ℝ) : ℝ :=
  traceInner nt grP (fun t => if t < nt / C.ratio * C.ratio then
      sample C.rcvP (C.run fp fv (C.prepare w.toInit) t).p else fun _ => 0) +
    ∑ k, traceInner nt (grV k) (fun t => if t < nt / C.ratio * C.ratio then
      sample (C.rcvV k) ((C.run fp fv (C.prepare w.toInit) t).v k) else fun _ => 0) +
    (C.unpadAll (C.run fp fv (C.prepare w.toInit) (nt / C.ratio * C.ratio))).inner C.userCells g

variable {C : Cfg d np mp nv mv ℝ}

theorem Wavefields.inner_plus (S : Finset (Cell d)) (w δ x : Wavefields d ℝ) (e : ℝ) :
    (w.plus e δ).inner S x = w.inner S x + e * δ.inner S x := by
  simp only [Wavefields.inner, Wavefields.plus, add_mul, Finset.sum_add_distrib, mul_add, Finset.mul_sum,
    mul_assoc]
  ring

theorem Cfg.obj_eq (h : C.WF) (hb : C.Big) (hr : 0 < C.ratio) (nt : ℕ) (grP : ℕ → Fin mp → ℝ)
    (grV : (k : Fin d) → ℕ → Fin (mv k) → ℝ) (g : Wavefields d ℝ) (fp : ℕ → Fin np → ℝ)
    (fv : (k : Fin d) → ℕ → Fin (nv k) → ℝ) (w : Wavefields d ℝ) {gk gb : Bool} {cb : Option ℕ}
    {storeK : ℕ → Fld d ℝ} {storeB : ℕ → Fin d → Fld d ℝ} {b : BResult d np nv ℝ}
    (hcf : 0 < nt → 0 < cb.getD (nt / C.ratio))
    (hb' : C.backward gk gb cb nt storeK storeB grP grV g.toInit = .ok b) :
    C.obj nt grP grV g fp fv w =
      traceInner nt fp b.gfP + ∑ k, traceInner nt (fv k) (b.gfV k) + w.inner C.userCells b.out := by
  obtain ⟨r, b', h1, h2, h3⟩ := C31_acoustic_backward_is_adjoint h hb hr true true gk gb (some 1) cb nt
    (fun _ => by simp) hcf fp fv w g grP grV storeK storeB
  rw [hb'] at h2
  cases h2
  rw [forward_eq h true true (some 1) nt fp fv _ hr (fun _ => by simp)] at h1
  cases h1
  exact h3

theorem hasDeriv_inject' {n : ℕ} (loc : Fin n → Option (Cell d)) (q : ℝ → Fin n → ℝ) (δ : Fin n → ℝ)
    (hq : ∀ i, HasDerivAt (fun e => q e i) (δ i) 0) (c : Cell d) :
    HasDerivAt (fun e : ℝ => inject loc (q e) c) (inject loc δ c) 0 := by
  simp only [inject]
  refine HasDerivAt.fun_sum fun i _ => ?_
  split_ifs
  · exact hq i
  · exact hasDerivAt_const _ _

theorem hasDeriv_halfV' (K : ℝ → Fld d ℝ) (B : ℝ → Fin d → Fld d ℝ) (δB : Fin d → Fld d ℝ) (hB0 : B 0 = C.B)
    (hB : ∀ k c, HasDerivAt (fun e => B e k c) (δB k c) 0)
    (q : ℝ → (k : Fin d) → Fin (nv k) → ℝ) (δ : (k : Fin d) → Fin (nv k) → ℝ)
    (hq : ∀ k i, HasDerivAt (fun e => q e k i) (δ k i) 0)
    {s : ℝ → Wavefields d ℝ} {ds : Wavefields d ℝ} (h : Wavefields.HasDeriv s ds 0) :
    Wavefields.HasDeriv (fun e => (C.withM (K e) (B e)).halfV (q e) (s e)) (C.tHalfV δB δ (s 0) ds) 0 where
  p := h.p
  v := fun k c => by
    have h1 := ((h.v k c).sub (((hB k c).const_mul C.dt).mul
      (hasDeriv_gradP (C := C) h k c))).add (hasDeriv_inject' (C.srcV k) (fun e => q e k) (δ k) (hq k) c)
    refine (h1.congr_deriv ?_).congr_of_eventuallyEq (Filter.Eventually.of_forall fun e => rfl)
    simp only [Cfg.tHalfV, Cfg.halfV, hB0]
    ring
  phi := h.phi
  psi := fun k c => hasDeriv_psi' (C := C) h k c

theorem hasDeriv_halfP' (K : ℝ → Fld d ℝ) (B : ℝ → Fin d → Fld d ℝ) (δK : Fld d ℝ) (hK0 : K 0 = C.K)
    (hK : ∀ c, HasDerivAt (fun e => K e c) (δK c) 0)
    (q : ℝ → Fin np → ℝ) (δ : Fin np → ℝ) (hq : ∀ i, HasDerivAt (fun e => q e i) (δ i) 0)
    {s : ℝ → Wavefields d ℝ} {ds : Wavefields d ℝ} (h : Wavefields.HasDeriv s ds 0) :
    Wavefields.HasDeriv (fun e => (C.withM (K e) (B e)).halfP (q e) (s e)) (C.tHalfP δK δ (s 0) ds) 0 where
  p := fun c => by
    have h1 := ((h.p c).sub (((hK c).const_mul C.dt).mul
      (hasDeriv_divV (C := C) h c))).add (hasDeriv_inject' C.srcP q δ hq c)
    refine (h1.congr_deriv ?_).congr_of_eventuallyEq (Filter.Eventually.of_forall fun e => rfl)
    simp only [Cfg.tHalfP, Cfg.halfP, hK0]
    ring
  v := h.v
  phi := fun k c => hasDeriv_phi' (C := C) h k c
  psi := h.psi

theorem withM_zero {K : ℝ → Fld d ℝ} {B : ℝ → Fin d → Fld d ℝ} (hK0 : K 0 = C.K) (hB0 : B 0 = C.B) :
    C.withM (K 0) (B 0) = C := by rw [hK0, hB0]; rfl

theorem withM_wf (h : C.WF) (K : Fld d ℝ) (B : Fin d → Fld d ℝ) : (C.withM K B).WF :=
  ⟨h.w0_nonneg, h.w1_nonneg, h.size, h.a_mid, h.b_mid, h.ah_mid, h.bh_mid, h.srcP_in, h.srcV_in,
    h.rcvP_in, h.rcvV_in⟩

theorem hasDeriv_run' (K : ℝ → Fld d ℝ) (B : ℝ → Fin d → Fld d ℝ) (δK : Fld d ℝ) (δB : Fin d → Fld d ℝ)
    (hK0 : K 0 = C.K) (hB0 : B 0 = C.B) (hK : ∀ c, HasDerivAt (fun e => K e c) (δK c) 0)
    (hB : ∀ k c, HasDerivAt (fun e => B e k c) (δB k c) 0)
    (fp : ℝ → ℕ → Fin np → ℝ) (δp : ℕ → Fin np → ℝ) (hp : ∀ t i, HasDerivAt (fun e => fp e t i) (δp t i) 0)
    (fv : ℝ → (k : Fin d) → ℕ → Fin (nv k) → ℝ) (δv : (k : Fin d) → ℕ → Fin (nv k) → ℝ)
    (hv : ∀ k t i, HasDerivAt (fun e => fv e k t i) (δv k t i) 0)
    {s : ℝ → Wavefields d ℝ} {ds : Wavefields d ℝ} (hs : Wavefields.HasDeriv s ds 0) (n : ℕ) :
    Wavefields.HasDeriv (fun e => (C.withM (K e) (B e)).run (fp e) (fv e) (s e) n)
      (C.tRun (fp 0) δp (fv 0) δv δK δB (s 0) ds n) 0 := by
  induction n with
  | zero => exact hs
  | succ n ih =>
      have h1 := hasDeriv_halfV' (C := C) K B δB hB0 hB (fun e k => fv e k n) (fun k => δv k n)
        (fun k => hv k n) ih
      have h2 := hasDeriv_halfP' (C := C) K B δK hK0 hK (fun e => fp e n) (δp n) (hp n) h1
      simp only [withM_zero hK0 hB0] at h2
      exact h2

/-- The derivative of the objective along a curve is the pairing of its direction with what the backward pass
gives. -/
theorem Cfg.obj_deriv_all (h : C.WF) (hb : C.Big) (hr : C.ratio = 1) (nt : ℕ) (grP : ℕ → Fin mp → ℝ)
    (grV : (k : Fin d) → ℕ → Fin (mv k) → ℝ) (g : Wavefields d ℝ)
    (K : ℝ → Fld d ℝ) (B : ℝ → Fin d → Fld d ℝ) (δK : Fld d ℝ) (δB : Fin d → Fld d ℝ)
    (hK0 : K 0 = C.K) (hB0 : B 0 = C.B) (hK : ∀ c, HasDerivAt (fun e => K e c) (δK c) 0)
    (hB : ∀ k c, HasDerivAt (fun e => B e k c) (δB k c) 0)
    (fp : ℝ → ℕ → Fin np → ℝ) (δp : ℕ → Fin np → ℝ) (hp : ∀ t i, HasDerivAt (fun e => fp e t i) (δp t i) 0)
    (fv : ℝ → (k : Fin d) → ℕ → Fin (nv k) → ℝ) (δv : (k : Fin d) → ℕ → Fin (nv k) → ℝ)
    (hv : ∀ k t i, HasDerivAt (fun e => fv e k t i) (δv k t i) 0)
    (w δw : Wavefields d ℝ) {gk gb : Bool} (hgk : gk = true ∨ δK = fun _ => 0)
    (hgb : gb = true ∨ δB = fun _ _ => 0) {cb cb' : Option ℕ} {r : FResult d mp mv ℝ} {b : BResult d np nv ℝ}
    (hcf : 0 < nt → 0 < cb.getD nt) (hcf' : 0 < nt → 0 < cb'.getD nt)
    (hf : C.forward gk gb cb nt (fp 0) (fv 0) w.toInit = .ok r)
    (hbk : C.backward gk gb cb' nt r.storeK r.storeB grP grV g.toInit = .ok b) :
    HasDerivAt (fun e => (C.withM (K e) (B e)).obj nt grP grV g (fp e) (fv e) (w.plus e δw))
      (∑ c ∈ C.modelCells, δK c * b.gK c + ∑ k, ∑ c ∈ C.modelCells, δB k c * b.gB k c
        + traceInner nt δp b.gfP + ∑ k, traceInner nt (δv k) (b.gfV k)
        + δw.inner C.userCells b.out) 0 := by
  have hr0 : 0 < C.ratio := by omega
  have hdiv : nt / C.ratio * C.ratio = nt := by rw [hr]; simp
  have hdiv' : nt / C.ratio = nt := by rw [hr]; simp
  rw [forward_eq h gk gb cb nt _ _ _ hr0 (by rw [hr]; simpa using hcf)] at hf
  cases hf
  rw [backward_eq h hb gk gb cb' nt _ _ grP grV _ hr0 (by rw [hr]; simpa using hcf')] at hbk
  cases hbk
  have hratio : ∀ e, (C.withM (K e) (B e)).ratio = C.ratio := fun _ => rfl
  have hs : ∀ (e : ℝ) w, (C.withM (K e) (B e)).prepare w = C.prepare w := fun _ _ => rfl
  have hup : ∀ (e : ℝ) w, (C.withM (K e) (B e)).unpadAll w = C.unpadAll w := fun _ _ => rfl
  have hrp : ∀ e, (C.withM (K e) (B e)).rcvP = C.rcvP := fun _ => rfl
  have hrv : ∀ e, (C.withM (K e) (B e)).rcvV = C.rcvV := fun _ => rfl
  have huc : ∀ e, (C.withM (K e) (B e)).userCells = C.userCells := fun _ => rfl
  simp only [Cfg.obj, hratio, hdiv, hs, hup, hrp, hrv, huc, traceInner_of_lt le_rfl]
  have hl := prepare_good (C := C) g.toInit
  have hdw := prepare_good (C := C) δw.toInit
  have hst := hasDeriv_prepare (C := C) w δw
  have hrun := fun n => hasDeriv_run' (C := C) K B δK δB hK0 hB0 hK hB fp δp hp fv δv hv hst n
  have e0 : w.plus 0 δw = w := by simp [Wavefields.plus]
  simp only [e0] at hrun
  set R : ℝ → ℕ → Wavefields d ℝ := fun e => (C.withM (K e) (B e)).run (fp e) (fv e)
    (C.prepare (w.plus e δw).toInit) with hRdef
  set s := C.prepare w.toInit with hsdef
  have hgood : ∀ e n, C.Good (R e n) := fun e n => by
    have gd := run_good (withM_wf h (K e) (B e)) (fp e) (fv e)
      (prepare_good (C := C.withM (K e) (B e)) (w.plus e δw).toInit) n
    exact ⟨gd.p, gd.v, gd.phi, gd.psi, gd.phi_mid, gd.psi_mid⟩
  have hin : ∀ e, (C.unpadAll (R e nt)).inner C.userCells g = C.pair (R e nt) (C.prepare g.toInit) :=
    fun e => inner_out (hgood e nt) g
  have hfun : ∀ e, (∑ t ∈ Finset.range nt, ∑ i, grP t i * sample C.rcvP (R e t).p i)
      + (∑ k, ∑ t ∈ Finset.range nt, ∑ i, grV k t i * sample (C.rcvV k) ((R e t).v k) i)
      + (C.unpadAll (R e nt)).inner C.userCells g =
      C.pair (R e nt) (C.prepare g.toInit)
        + (∑ t ∈ Finset.range nt, ∑ i, grP t i * sample C.rcvP (R e t).p i)
        + ∑ t ∈ Finset.range nt, ∑ k, ∑ i, grV k t i * sample (C.rcvV k) ((R e t).v k) i := by
    intro e
    rw [hin, Finset.sum_comm (s := Finset.univ)]
    ring
  change HasDerivAt (fun e => (∑ t ∈ Finset.range nt, ∑ i, grP t i * sample C.rcvP (R e t).p i)
      + (∑ k, ∑ t ∈ Finset.range nt, ∑ i, grV k t i * sample (C.rcvV k) ((R e t).v k) i)
      + (C.unpadAll (R e nt)).inner C.userCells g) _ 0
  simp only [hfun]
  have hdot : ∀ (x : ℝ → Fld d ℝ) (x' y : Fld d ℝ), (∀ c, HasDerivAt (fun e => x e c) (x' c) 0) →
      HasDerivAt (fun e => dot C.S (x e) y) (dot C.S x' y) 0 := by
    intro x x' y hx
    simp only [dot]
    exact HasDerivAt.fun_sum fun c _ => (hx c).mul_const _
  have hsmp : ∀ (m : ℕ) (loc : Fin m → Option (Cell d)) (i : Fin m) (x : ℝ → Fld d ℝ) (x' : Fld d ℝ),
      (∀ c, HasDerivAt (fun e => x e c) (x' c) 0) →
      HasDerivAt (fun e => sample loc (x e) i) (sample loc x' i) 0 := by
    intro m loc i x x' hx
    simp only [sample]
    cases loc i with
    | none => exact hasDerivAt_const _ _
    | some c => exact hx c
  have hd := ((((hdot _ _ (C.prepare g.toInit).p (hrun nt).p).add
      (HasDerivAt.fun_sum (u := Finset.univ) fun k _ =>
        hdot _ _ ((C.prepare g.toInit).v k) ((hrun nt).v k))).add
      (HasDerivAt.fun_sum (u := Finset.univ) fun k _ =>
        hdot _ _ ((C.prepare g.toInit).phi k) ((hrun nt).phi k))).add
      (HasDerivAt.fun_sum (u := Finset.univ) fun k _ =>
        hdot _ _ ((C.prepare g.toInit).psi k) ((hrun nt).psi k))).add
    (HasDerivAt.fun_sum (u := Finset.range nt) fun t _ =>
      HasDerivAt.fun_sum (u := Finset.univ) fun i _ =>
        HasDerivAt.const_mul (grP t i) (hsmp _ C.rcvP i _ _ (hrun t).p))
  have hd := hd.add (HasDerivAt.fun_sum (u := Finset.range nt) fun t _ =>
      HasDerivAt.fun_sum (u := Finset.univ) fun k _ =>
      HasDerivAt.fun_sum (u := Finset.univ) fun i _ =>
        HasDerivAt.const_mul (grV k t i) (hsmp _ (C.rcvV k) i _ _ ((hrun t).v k)))
  refine HasDerivAt.congr_deriv hd ?_
  have e := pair_tRun h s hdw hl (fp 0) δp (fv 0) δv δK δB grP grV nt
  refine Eq.trans e ?_
  rw [inner_start δw (bRun_good h grP grV nt hl nt),
    Finset.sum_comm (s := Finset.range nt) (t := Finset.univ) (f := fun t k => ∑ i, δv k t i * _),
    Finset.sum_comm (s := Finset.range nt) (t := Finset.univ) (f := fun t k => dot _ _ _)]
  have hK' : ∑ c ∈ C.modelCells, δK c * -∑ i ∈ Finset.range nt, gKAt C gk
        (fun j => if gk = true ∧ j < nt then C.divV (C.halfV (fun k => fv 0 k (j * C.ratio))
          (C.run (fp 0) (fv 0) s (j * C.ratio))) else fun _ => 0) grP grV nt (C.prepare g.toInit) i c =
      -∑ t ∈ Finset.range nt, dot C.S (fun c => C.dt * δK c
        * C.divV (C.halfV (fun k => fv 0 k t) (C.run (fp 0) (fv 0) s t)) c)
          (C.bRun grP grV nt (C.prepare g.toInit) (nt - 1 - t)).p := by
    rcases hgk with rfl | rfl
    · rw [sum_modelCells (F := fun c => δK c * _) (fun c hc => by simp [gKAt, hc])]
      simp only [mul_neg, Finset.sum_neg_distrib, Finset.mul_sum]
      rw [Finset.sum_comm, ← Finset.sum_range_reflect]
      refine congrArg _ (Finset.sum_congr rfl fun t ht => ?_)
      rw [Finset.mem_range] at ht
      refine Finset.sum_congr rfl fun c hc => ?_
      rw [Cfg.mem_S] at hc
      have e1 : nt - 1 - (nt - 1 - t) = t := by omega
      simp only [gKAt, hr, Nat.mod_one, hc, beq_self_eq_true, Bool.and_self, and_self, if_true, e1,
        Nat.div_one, Nat.cast_one, mul_one, ht]
      ring
    · simp [dot]
  have hB' : ∀ k, ∑ c ∈ C.modelCells, δB k c * -∑ i ∈ Finset.range nt, gBAt C gb
        (fun j k => if gb = true ∧ j < nt then C.gradP k (C.run (fp 0) (fv 0) s (j * C.ratio))
          else fun _ => 0) grP grV nt (C.prepare g.toInit) i k c =
      -∑ t ∈ Finset.range nt, dot C.S (fun c => C.dt * δB k c * C.gradP k (C.run (fp 0) (fv 0) s t) c)
          ((C.bHalfV (C.bRun grP grV nt (C.prepare g.toInit) (nt - 1 - t))).v k) := by
    intro k
    rcases hgb with rfl | rfl
    · rw [sum_modelCells (F := fun c => δB k c * _)
        (fun c hc => by simp [gBAt, Cfg.InnerH, hc])]
      simp only [mul_neg, Finset.sum_neg_distrib, Finset.mul_sum]
      rw [Finset.sum_comm, ← Finset.sum_range_reflect]
      refine congrArg _ (Finset.sum_congr rfl fun t ht => ?_)
      rw [Finset.mem_range] at ht
      refine Finset.sum_congr rfl fun c hc => ?_
      have e1 : nt - 1 - (nt - 1 - t) = t := by omega
      by_cases hi : C.InnerH k c
      · simp only [gBAt, hr, Nat.mod_one, hi, beq_self_eq_true, Bool.and_self, and_self, if_true, e1,
          Nat.div_one, Nat.cast_one, mul_one, ht]
        ring
      · simp [gBAt, hi, Cfg.gradP]
    · simp [dot]
  simp only [hdiv, hdiv']
  rw [hK', Finset.sum_congr rfl fun k _ => hB' k, Finset.sum_neg_distrib]
  ring

end Dw.Acoustic
