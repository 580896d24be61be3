import Verif.Props.Elastic
import Verif.Acoustic.GradAll

/-!
# Derivatives of `elastic` along curves

Lamé parameters, shear moduli at the shear stress points, buoyancies, source amplitudes and initial wavefields
change together, the models and amplitudes along any differentiable curve: the shear moduli and the buoyancies
at the staggered points are not linear in the user's models.
-/

namespace Dw.Elastic

open Dw.Scalar (inject sample traceInner traceInner_of_lt)
open Dw.Acoustic (hasDeriv_inject')

variable {d np mp : ℕ} {nv mv : Fin d → ℕ}

/-- The configuration with other models. -/
def Cfg.withM {R : Type*} (C : Cfg d np mp nv mv R) (M : Grads d R) : Cfg d np mp nv mv R :=
  {C with lam := M.l, mu := M.m, muS := M.s, B := M.b}

/-- `⟨grP, pressure data⟩ + ⟨grV, velocity data⟩ + ⟨g, final wavefields⟩` -/
noncomputable def Cfg.obj (C : Cfg d np mp nv mv ℝ) (nt : ℕ) (grP : ℕ → Fin mp → ℝ)
    (grV : (k : Fin d) → ℕ → Fin (mv k) → ℝ) (g : Wavefields d ℝ) (fp : ℕ → Fin np → ℝ)
    (fv : (k : Fin d) → ℕ → Fin (nv k) → ℝ) (w : Wavefields d ℝ) : ℝ :=
  traceInner nt grP (fun t => if t < nt / C.ratio * C.ratio then
      sample C.rcvP (C.run fp fv (C.prepare w.toInit) t).prs else fun _ => 0) +
    ∑ k, traceInner nt (grV k) (fun t => if t < nt / C.ratio * C.ratio then
      sample (C.rcvV k) ((C.run fp fv (C.prepare w.toInit) t).v k) else fun _ => 0) +
    (C.unpadAll (C.run fp fv (C.prepare w.toInit) (nt / C.ratio * C.ratio))).inner C.userCells g

variable {C : Cfg d np mp nv mv ℝ}

theorem Wavefields.inner_plus (S : Finset (Cell d)) (w δ x : Wavefields d ℝ) (e : ℝ) :
    (w.plus e δ).inner S x = w.inner S x + e * δ.inner S x := by
  simp only [Wavefields.inner, Wavefields.plus, add_mul, Finset.sum_add_distrib, mul_add, Finset.mul_sum,
    mul_assoc]
  ring

theorem Cfg.obj_eq (h : C.WF) (hb : C.Big) (hr : 0 < C.ratio) (nt : ℕ) (grP : ℕ → Fin mp → ℝ)
    (grV : (k : Fin d) → ℕ → Fin (mv k) → ℝ) (g : Wavefields d ℝ) (fp : ℕ → Fin np → ℝ)
    (fv : (k : Fin d) → ℕ → Fin (nv k) → ℝ) (w : Wavefields d ℝ) {gl gm gb : Bool} {cb : Option ℕ}
    {st : Stores d ℝ} {b : BResult d np nv ℝ}
    (hcf : 0 < nt → 0 < cb.getD (nt / C.ratio))
    (hb' : C.backward gl gm gb cb nt st.b st.n st.s grP grV g.toInit = .ok b) :
    C.obj nt grP grV g fp fv w =
      traceInner nt fp b.gfP + ∑ k, traceInner nt (fv k) (b.gfV k) + w.inner C.userCells b.out := by
  obtain ⟨r, b', h1, h2, h3⟩ := C44_elastic_backward_is_adjoint h hb hr true true true gl gm gb (some 1) cb nt
    (fun _ => by simp) hcf fp fv w g grP grV st
  rw [hb'] at h2
  cases h2
  rw [forward_eq h true true true (some 1) nt fp fv _ hr (fun _ => by simp)] at h1
  cases h1
  exact h3

/-- The models change along a differentiable curve. -/
structure Grads.HasDeriv (M : ℝ → Grads d ℝ) (δ : Grads d ℝ) : Prop where
  l : ∀ c, HasDerivAt (fun e => (M e).l c) (δ.l c) 0
  m : ∀ c, HasDerivAt (fun e => (M e).m c) (δ.m c) 0
  s : ∀ p c, HasDerivAt (fun e => (M e).s p c) (δ.s p c) 0
  b : ∀ i c, HasDerivAt (fun e => (M e).b i c) (δ.b i c) 0

/-- The models of a configuration. -/
def Cfg.models {R : Type*} (C : Cfg d np mp nv mv R) : Grads d R := ⟨C.lam, C.mu, C.muS, C.B⟩

theorem hasDeriv_halfV' (M : ℝ → Grads d ℝ) (δ : Grads d ℝ) (hM0 : M 0 = C.models) (hM : Grads.HasDeriv M δ)
    (q : ℝ → (k : Fin d) → Fin (nv k) → ℝ) (δq : (k : Fin d) → Fin (nv k) → ℝ)
    (hq : ∀ k i, HasDerivAt (fun e => q e k i) (δq k i) 0)
    {w : ℝ → Wavefields d ℝ} {dw : Wavefields d ℝ} (h : Wavefields.HasDeriv w dw 0) :
    Wavefields.HasDeriv (fun e => (C.withM (M e)).halfV (q e) (w e)) (C.tHalfV δ δq (w 0) dw) 0 where
  v := fun i c => by
    have h1 := ((h.v i c).add (((hM.b i c).mul_const C.dt).mul
      (hasDeriv_divS (C := C) h i c))).add (hasDeriv_inject' (C.srcV i) (fun e => q e i) (δq i) (hq i) c)
    refine (h1.congr_deriv ?_).congr_of_eventuallyEq (Filter.Eventually.of_forall fun e => rfl)
    simp only [Cfg.tHalfV, Cfg.halfV, hM0, Cfg.models]
    ring
  s := h.s
  sh := h.sh
  mv := h.mv
  ms := fun i j c => hasDeriv_mem' (C := C) (hasDeriv_sig h i j) (h.ms i j) _ _ c

theorem hasDeriv_halfS' (M : ℝ → Grads d ℝ) (δ : Grads d ℝ) (hM0 : M 0 = C.models) (hM : Grads.HasDeriv M δ)
    (q : ℝ → Fin np → ℝ) (δq : Fin np → ℝ) (hq : ∀ i, HasDerivAt (fun e => q e i) (δq i) 0)
    {w : ℝ → Wavefields d ℝ} {dw : Wavefields d ℝ} (h : Wavefields.HasDeriv w dw 0) :
    Wavefields.HasDeriv (fun e => (C.withM (M e)).halfS (q e) (w e)) (C.tHalfS δ δq (w 0) dw) 0 where
  v := h.v
  s := fun i c => by
    have h1 := ((h.s i c).add ((((hM.l c).mul
      (HasDerivAt.fun_sum (u := Finset.univ) fun k _ => hasDeriv_gradV (C := C) h k k c)).add
      (((hM.m c).const_mul 2).mul (hasDeriv_gradV (C := C) h i i c))).const_mul
        C.dt)).add (hasDeriv_inject' C.srcP q δq hq c)
    refine (h1.congr_deriv ?_).congr_of_eventuallyEq (Filter.Eventually.of_forall fun e => rfl)
    simp only [Cfg.tHalfS, Cfg.halfS, hM0, Cfg.models]
    ring
  sh := fun p c => by
    have h1 := (h.sh p c).add (((hM.s p c).const_mul C.dt).mul
      ((hasDeriv_gradV (C := C) h p.1.1 p.1.2 c).add (hasDeriv_gradV (C := C) h p.1.2 p.1.1 c)))
    refine (h1.congr_deriv ?_).congr_of_eventuallyEq (Filter.Eventually.of_forall fun e => rfl)
    simp only [Cfg.tHalfS, Cfg.halfS, hM0, Cfg.models, Pi.add_apply]
    ring
  mv := fun i j c => hasDeriv_mem' (C := C) (h.v i) (h.mv i j) _ _ c
  ms := h.ms

theorem withM_zero {M : ℝ → Grads d ℝ} (hM0 : M 0 = C.models) : C.withM (M 0) = C := by rw [hM0]; rfl

theorem withM_wf (h : C.WF) (M : Grads d ℝ) : (C.withM M).WF :=
  ⟨h.w0_nonneg, h.w1_nonneg, h.size, h.pa_mid, h.pb_mid, h.srcP_in, h.srcV_in, h.rcvP_in, h.rcvV_in⟩

theorem hasDeriv_run' (M : ℝ → Grads d ℝ) (δ : Grads d ℝ) (hM0 : M 0 = C.models) (hM : Grads.HasDeriv M δ)
    (fp : ℝ → ℕ → Fin np → ℝ) (δp : ℕ → Fin np → ℝ) (hp : ∀ t i, HasDerivAt (fun e => fp e t i) (δp t i) 0)
    (fv : ℝ → (k : Fin d) → ℕ → Fin (nv k) → ℝ) (δv : (k : Fin d) → ℕ → Fin (nv k) → ℝ)
    (hv : ∀ k t i, HasDerivAt (fun e => fv e k t i) (δv k t i) 0)
    {w : ℝ → Wavefields d ℝ} {dw : Wavefields d ℝ} (hs : Wavefields.HasDeriv w dw 0) (n : ℕ) :
    Wavefields.HasDeriv (fun e => (C.withM (M e)).run (fp e) (fv e) (w e) n)
      (C.tRun (fp 0) δp (fv 0) δv δ (w 0) dw n) 0 := by
  induction n with
  | zero => exact hs
  | succ n ih =>
      have h1 := hasDeriv_halfV' (C := C) M δ hM0 hM (fun e k => fv e k n) (fun k => δv k n)
        (fun k => hv k n) ih
      have h2 := hasDeriv_halfS' (C := C) M δ hM0 hM (fun e => fp e n) (δp n) (hp n) h1
      simp only [withM_zero hM0] at h2
      exact h2

/-- The gradients of the models that need them, from the snapshots stored for them. -/
theorem inner_gradSum_flags (h : C.WF) (hr : C.ratio = 1) (fp : ℕ → Fin np → ℝ)
    (fv : (k : Fin d) → ℕ → Fin (nv k) → ℝ) (s l : Wavefields d ℝ) (grP : ℕ → Fin mp → ℝ)
    (grV : (k : Fin d) → ℕ → Fin (mv k) → ℝ) (δ : Grads d ℝ) (nt : ℕ) (hl : C.Good l) {gl gm gb : Bool}
    (hgl : gl = true ∨ δ.l = fun _ => 0) (hgm : gm = true ∨ (δ.m = fun _ => 0) ∧ δ.s = fun _ _ => 0)
    (hgb : gb = true ∨ δ.b = fun _ _ => 0) :
    δ.inner C.modelCells (gradSum C gl gm gb
      ⟨fun j i => if gb = true ∧ j < nt / C.ratio then
         (fun c => C.dt * C.divS (C.run fp fv s (j * C.ratio)) i c) else fun _ => 0,
       fun j i => if (gl || gm) = true ∧ j < nt / C.ratio then
           (fun c => C.dt * C.gradV (C.halfV (fun k => fv k (j * C.ratio))
             (C.run fp fv s (j * C.ratio))) i i c) else fun _ => 0,
       fun j p => if gm = true ∧ j < nt / C.ratio then
           (fun c => C.dt *
             (C.gradV (C.halfV (fun k => fv k (j * C.ratio)) (C.run fp fv s (j * C.ratio))) p.1.1 p.1.2 c
             + C.gradV (C.halfV (fun k => fv k (j * C.ratio)) (C.run fp fv s (j * C.ratio)))
               p.1.2 p.1.1 c)) else fun _ => 0⟩ grP grV nt l nt) =
      ∑ t ∈ Finset.range nt, C.pertS δ (C.halfV (fun k => fv k t) (C.run fp fv s t))
          (C.bRun grP grV nt l (nt - 1 - t))
      + ∑ t ∈ Finset.range nt, C.pertV δ (C.run fp fv s t)
          (C.bHalfV (C.bRun grP grV nt l (nt - 1 - t))) := by
  rw [← inner_gradSum h hr fp fv s l grP grV δ nt hl]
  simp only [Grads.inner]
  refine congrArg₂ _ (congrArg₂ _ (congrArg₂ _ ?_ ?_) ?_) ?_
  · rcases hgl with rfl | h0
    · rfl
    · simp [h0]
  · rcases hgm with rfl | ⟨h0, -⟩
    · simp only [Bool.or_true]
      rfl
    · simp [h0]
  · rcases hgm with rfl | ⟨-, h0⟩
    · simp only [gradSum, gradTerm]
    · simp [h0]
  · rcases hgb with rfl | h0
    · simp only [gradSum, gradTerm]
    · simp [h0]

/-- The derivative of the objective along a curve is the pairing of its direction with what the backward pass
gives. -/
theorem Cfg.obj_deriv_all (h : C.WF) (hb : C.Big) (hr : C.ratio = 1) (nt : ℕ) (grP : ℕ → Fin mp → ℝ)
    (grV : (k : Fin d) → ℕ → Fin (mv k) → ℝ) (g : Wavefields d ℝ)
    (M : ℝ → Grads d ℝ) (δ : Grads d ℝ) (hM0 : M 0 = C.models) (hM : Grads.HasDeriv M δ)
    (fp : ℝ → ℕ → Fin np → ℝ) (δp : ℕ → Fin np → ℝ) (hp : ∀ t i, HasDerivAt (fun e => fp e t i) (δp t i) 0)
    (fv : ℝ → (k : Fin d) → ℕ → Fin (nv k) → ℝ) (δv : (k : Fin d) → ℕ → Fin (nv k) → ℝ)
    (hv : ∀ k t i, HasDerivAt (fun e => fv e k t i) (δv k t i) 0)
    (w δw : Wavefields d ℝ) {gl gm gb : Bool} (hgl : gl = true ∨ δ.l = fun _ => 0)
    (hgm : gm = true ∨ (δ.m = fun _ => 0) ∧ δ.s = fun _ _ => 0) (hgb : gb = true ∨ δ.b = fun _ _ => 0)
    {cb cb' : Option ℕ} {r : FResult d mp mv ℝ} {b : BResult d np nv ℝ}
    (hcf : 0 < nt → 0 < cb.getD nt) (hcf' : 0 < nt → 0 < cb'.getD nt)
    (hf : C.forward gl gm gb cb nt (fp 0) (fv 0) w.toInit = .ok r)
    (hbk : C.backward gl gm gb cb' nt r.storeB r.storeN r.storeS grP grV g.toInit = .ok b) :
    HasDerivAt (fun e => (C.withM (M e)).obj nt grP grV g (fp e) (fv e) (w.plus e δw))
      (δ.inner C.modelCells b.gr + traceInner nt δp b.gfP + ∑ k, traceInner nt (δv k) (b.gfV k)
        + δw.inner C.userCells b.out) 0 := by
  have hr0 : 0 < C.ratio := by omega
  have hdiv : nt / C.ratio * C.ratio = nt := by rw [hr]; simp
  rw [forward_eq h gl gm gb cb nt _ _ _ hr0 (by rw [hr]; simpa using hcf)] at hf
  cases hf
  rw [backward_eq h hb gl gm gb cb' nt ⟨_, _, _⟩ grP grV _ hr0 (by rw [hr]; simpa using hcf')] at hbk
  cases hbk
  have hratio : ∀ e, (C.withM (M e)).ratio = C.ratio := fun _ => rfl
  have hs : ∀ (e : ℝ) w, (C.withM (M e)).prepare w = C.prepare w := fun _ _ => rfl
  have hup : ∀ (e : ℝ) w, (C.withM (M e)).unpadAll w = C.unpadAll w := fun _ _ => rfl
  have hrp : ∀ e, (C.withM (M e)).rcvP = C.rcvP := fun _ => rfl
  have hrv : ∀ e, (C.withM (M e)).rcvV = C.rcvV := fun _ => rfl
  have huc : ∀ e, (C.withM (M e)).userCells = C.userCells := fun _ => rfl
  simp only [Cfg.obj, hratio, hdiv, hs, hup, hrp, hrv, huc, traceInner_of_lt le_rfl]
  have hl := prepare_good (C := C) g.toInit
  have hdw := prepare_good (C := C) δw.toInit
  have hst := hasDeriv_prepare (C := C) w δw
  have hrun := fun n => hasDeriv_run' (C := C) M δ hM0 hM fp δp hp fv δv hv hst n
  have e0 : w.plus 0 δw = w := by simp [Wavefields.plus]
  simp only [e0] at hrun
  set R : ℝ → ℕ → Wavefields d ℝ := fun e => (C.withM (M e)).run (fp e) (fv e) (C.prepare (w.plus e δw).toInit) with hRdef
  set s := C.prepare w.toInit with hsdef
  have hgood : ∀ e n, C.Good (R e n) := fun e n => by
    have gd := run_good (withM_wf h (M e)) (fp e) (fv e) (prepare_good (C := C.withM (M e)) (w.plus e δw).toInit) n
    exact ⟨gd.v, gd.s, gd.sh, gd.mv, gd.ms, gd.mv_mid, gd.ms_mid⟩
  have hin : ∀ e, (C.unpadAll (R e nt)).inner C.userCells g = C.pair (R e nt) (C.prepare g.toInit) :=
    fun e => inner_out (hgood e nt) g
  have hfun : ∀ e, (∑ t ∈ Finset.range nt, ∑ i, grP t i * sample C.rcvP (R e t).prs i)
      + (∑ k, ∑ t ∈ Finset.range nt, ∑ i, grV k t i * sample (C.rcvV k) ((R e t).v k) i)
      + (C.unpadAll (R e nt)).inner C.userCells g =
      C.pair (R e nt) (C.prepare g.toInit)
        + (∑ t ∈ Finset.range nt, ∑ i, grP t i * sample C.rcvP (R e t).prs i)
        + ∑ t ∈ Finset.range nt, ∑ k, ∑ i, grV k t i * sample (C.rcvV k) ((R e t).v k) i := by
    intro e
    rw [hin, Finset.sum_comm (s := Finset.univ)]
    ring
  change HasDerivAt (fun e => (∑ t ∈ Finset.range nt, ∑ i, grP t i * sample C.rcvP (R e t).prs i)
      + (∑ k, ∑ t ∈ Finset.range nt, ∑ i, grV k t i * sample (C.rcvV k) ((R e t).v k) i)
      + (C.unpadAll (R e nt)).inner C.userCells g) _ 0
  simp only [hfun]
  have hdot : ∀ (x : ℝ → Fld d ℝ) (x' y : Fld d ℝ), (∀ c, HasDerivAt (fun e => x e c) (x' c) 0) →
      HasDerivAt (fun e => dot C.S (x e) y) (dot C.S x' y) 0 := by
    intro x x' y hx
    simp only [dot]
    exact HasDerivAt.fun_sum fun c _ => (hx c).mul_const _
  have hsmp : ∀ (m : ℕ) (loc : Fin m → Option (Cell d)) (i : Fin m) (x : ℝ → Fld d ℝ) (x' : Fld d ℝ),
      (∀ c, HasDerivAt (fun e => x e c) (x' c) 0) →
      HasDerivAt (fun e => sample loc (x e) i) (sample loc x' i) 0 := by
    intro m loc i x x' hx
    simp only [sample]
    cases loc i with
    | none => exact hasDerivAt_const _ _
    | some c => exact hx c
  have hd := (((((HasDerivAt.fun_sum (u := Finset.univ) fun k _ =>
        hdot _ _ ((C.prepare g.toInit).v k) ((hrun nt).v k)).add
      (HasDerivAt.fun_sum (u := Finset.univ) fun k _ =>
        hdot _ _ ((C.prepare g.toInit).s k) ((hrun nt).s k))).add
      (HasDerivAt.fun_sum (u := Finset.univ) fun k _ =>
        hdot _ _ ((C.prepare g.toInit).sh k) ((hrun nt).sh k))).add
      (HasDerivAt.fun_sum (u := Finset.univ) fun i _ =>
        HasDerivAt.fun_sum (u := Finset.univ) fun j _ =>
        hdot _ _ ((C.prepare g.toInit).mv i j) ((hrun nt).mv i j))).add
      (HasDerivAt.fun_sum (u := Finset.univ) fun i _ =>
        HasDerivAt.fun_sum (u := Finset.univ) fun j _ =>
        hdot _ _ ((C.prepare g.toInit).ms i j) ((hrun nt).ms i j))).add
    (HasDerivAt.fun_sum (u := Finset.range nt) fun t _ =>
      HasDerivAt.fun_sum (u := Finset.univ) fun i _ =>
        HasDerivAt.const_mul (grP t i) (hsmp _ C.rcvP i (fun e => (R e t).prs) _
          (fun c => HasDerivAt.fun_sum (u := Finset.univ) fun k _ => (hrun t).s k c)))
  have hd := hd.add (HasDerivAt.fun_sum (u := Finset.range nt) fun t _ =>
      HasDerivAt.fun_sum (u := Finset.univ) fun k _ =>
      HasDerivAt.fun_sum (u := Finset.univ) fun i _ =>
        HasDerivAt.const_mul (grV k t i) (hsmp _ (C.rcvV k) i _ _ ((hrun t).v k)))
  refine HasDerivAt.congr_deriv hd ?_
  have e := pair_tRun h s hdw hl (fp 0) δp (fv 0) δv δ grP grV nt
  refine Eq.trans e ?_
  rw [inner_start δw (bRun_good h grP grV nt hl nt),
    Finset.sum_comm (s := Finset.range nt) (t := Finset.univ) (f := fun t k => ∑ i, δv k t i * _)]
  have hG := inner_gradSum_flags h hr (fp 0) (fv 0) s (C.prepare g.toInit) grP grV δ nt hl hgl hgm hgb
  rw [hG]
  ring

end Dw.Elastic
