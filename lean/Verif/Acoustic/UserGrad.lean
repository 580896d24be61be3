import Verif.Setup.AutogradShot
import Verif.Acoustic.GradAll
import Verif.Props.AcousticScheme
import Verif.Props.UserGradBorn

/-!
# Gradients of `acoustic`

What `backward()` gives for a call of `acoustic` (`acoustic.py` 335-640): automatic differentiation goes through
`downsample_and_movedim`, the propagator (`AcousticForwardFunc.backward`), the scalings of the source amplitudes
(561-585), `prepare_models` (37-88), `upsample`, and the slicing and padding of velocity and density.
-/

namespace Dw.Acoustic

open Setup Resample
open Born (gatherAt)
open Scalar (NoElements maxAbs upAmps plusAmp plusWf outCells PmlOk WholeIgnored traceInner)

variable {d np mp : ℕ} {nv mv : Fin d → ℕ}

/-! ### The scalings of the source amplitudes -/

open Classical in
/-- The gradient of the bulk modulus: from the propagator and from the scaling of the amplitudes `a`. -/
noncomputable def totK (C : Cfg d np mp nv mv ℝ) (nt : ℕ) (a : ℕ → Fin np → ℝ) (b : BResult d np nv ℝ) : Fld d ℝ := fun p =>
  b.gK p + ∑ t ∈ Finset.range nt, ∑ i, if ((C.srcP i).getD fun _ => 0) = p then b.gfP t i * (a t i * C.dt) else 0

open Classical in
/-- The gradients of the buoyancies. -/
noncomputable def totB (C : Cfg d np mp nv mv ℝ) (nt : ℕ) (a : (k : Fin d) → ℕ → Fin (nv k) → ℝ) (b : BResult d np nv ℝ)
    (k : Fin d) : Fld d ℝ := fun p =>
  b.gB k p + ∑ t ∈ Finset.range nt, ∑ i, if ((C.srcV k i).getD fun _ => 0) = p then b.gfV k t i * (a k t i * C.dt) else 0

/-! ### `prepare_models` -/

/-- The gradient of the velocity, from that of the bulk modulus (`acoustic.py` 56). -/
def prepareVT (v rho gK : Fld d ℝ) : Fld d ℝ := fun p => gK p * (rho p * (2 * v p))

/-- The gradient of the means of densities in dimension `k`, from that of the buoyancy (`acoustic.py` 63-85); there
is none at the end, where the mean is padded. -/
noncomputable def buoyT (n : Fin d → ℤ) (rfmax : ℝ) (rho : Fld d ℝ) (gB : Fin d → Fld d ℝ) (k : Fin d) : Fld d ℝ := fun p =>
  if p ∈ box (fun _ => 0) n ∧ p k + 1 < n k then
    if rfmax < |meanRho n rho k p| then -gB k p / meanRho n rho k p ^ 2 else 0
  else 0

/-- The gradient of the density: each density is in two means per dimension. -/
noncomputable def prepareRhoT (n : Fin d → ℤ) (rfmax : ℝ) (v rho gK : Fld d ℝ) (gB : Fin d → Fld d ℝ) : Fld d ℝ := fun p =>
  gK p * v p ^ 2 + ∑ k, (buoyT n rfmax rho gB k p / 2 + buoyT n rfmax rho gB k (p.shift k (-1)) / 2)

/-! ### A call -/

/-- The gradients from one shot: of the padded models, of the source amplitudes, and of the initial wavefields. -/
structure UGrad (d : ℕ) where
  v : Fld d ℝ
  rho : Fld d ℝ
  ampP : ℕ → ℕ → ℝ
  ampV : Fin d → ℕ → ℕ → ℝ
  wf : Wavefields d ℝ

/-- What the backward pass `b` of the propagator gives for the arguments of the user; `v` and `rho` are the padded
models, `aP` and `aV` the upsampled source amplitudes. -/
noncomputable def gradsOf (A : UArgs d) (P : Plan d) (v rho : Fld d ℝ) (C : Cfg d np mp nv mv ℝ) (aP : ℕ → Fin np → ℝ)
    (aV : (k : Fin d) → ℕ → Fin (nv k) → ℝ) (b : BResult d np nv ℝ) : UGrad d :=
  { v := prepareVT v rho (totK C P.nt.toNat aP b)
    rho := prepareRhoT (P.n true) A.rfmax v rho (totK C P.nt.toNat aP b) (totB C P.nt.toNat aV b)
    ampP := ampGrad P A.opts.timeTaper A.ampP fun t i => b.gfP t i * gatherAt C.K (C.srcP i) * C.dt
    ampV := fun k => ampGrad P A.opts.timeTaper (A.ampV k) fun t i =>
      b.gfV k t i * gatherAt (C.B k) (C.srcV k i) * C.dt
    wf := b.out }

open Classical in
/-- The backward pass of shot `s`, from the gradients of receiver amplitudes and final wavefields. -/
noncomputable def gradWith (A : UArgs d) (P : Plan d) (cf : ℤ) (s : ℕ) (v rho : Fld d ℝ) (bcb : Bool)
    (grP : ℕ → ℕ → ℝ) (grV : Fin d → ℕ → ℕ → ℝ) (g : Wavefields d ℝ) (C : Cfg d np mp nv mv ℝ) :
    Except PyErr (Option (UGrad d)) := do
  let aP : ℕ → Fin np → ℝ := fun t i => upAmps P A.opts.timeTaper A.ampP s t i
  let aV : (k : Fin d) → ℕ → Fin (nv k) → ℝ := fun k t i => upAmps P A.opts.timeTaper (A.ampV k) s t i
  let r ← C.forward A.gradK A.gradB (A.opts.cb cf) P.nt.toNat (scaleAmpP C aP) (scaleAmpV C aV) (A.wf.init s)
  let b ← C.backward A.gradK A.gradB (if bcb then some cf.toNat else none) P.nt.toNat r.storeK r.storeB
    (fun t i => downT P A.opts.timeTaper (grP i) t) (fun k t i => downT P A.opts.timeTaper (grV k i) t) g.toInit
  return if Finite (P.pml true) then some (gradsOf A P v rho C aP aV b) else none

open Classical in
/-- The gradients from shot `s` of a call; `bcb` says whether there is a backward callback. -/
noncomputable def UArgs.backward (A : UArgs d) (s : ℕ) (bcb : Bool) (grP : ℕ → ℕ → ℝ) (grV : Fin d → ℕ → ℕ → ℝ)
    (g : Wavefields d ℝ) : Except PyErr (Option (UGrad d)) := do
  let _ ← raiseIf A.Pre .runtimeError
  let P ← A.setup.plan
  let cf ← checkCallbackFrequency A.opts.callbackFreq
  let S := shotIn A.setup P A.opts.timeTaper s
  gradWith A P cf s (S.model 0) (S.model 1) bcb grP grV g (cfgOf A.rfmax S)

/-- `v.grad` and `rho.grad`, from the gradients of the shots. -/
noncomputable def UArgs.vGrad (A : UArgs d) (P : Plan d) (b : ℕ → UGrad d) : ℕ → Fld d ℝ :=
  modelGrad P true (A.v, .replicate) fun s => (b s).v

noncomputable def UArgs.rhoGrad (A : UArgs d) (P : Plan d) (b : ℕ → UGrad d) : ℕ → Fld d ℝ :=
  modelGrad P true (A.rho, .replicate) fun s => (b s).rho

/-! ### Directions -/

/-- A direction in which the differentiable arguments of a call can change. -/
structure UDir (d : ℕ) where
  v : ℕ → Fld d ℝ
  rho : ℕ → Fld d ℝ
  ampP : ℕ → ℕ → ℕ → ℝ
  ampV : Fin d → ℕ → ℕ → ℕ → ℝ
  wf : ℕ → Wavefields d ℝ

def UWf.plus (w : UWf d) (e : ℝ) (δ : ℕ → Wavefields d ℝ) : UWf d :=
  { p := w.p.map fun x => plusWf e x fun s => (δ s).p
    v := fun k => (w.v k).map fun x => plusWf e x fun s => (δ s).v k
    phi := fun k => (w.phi k).map fun x => plusWf e x fun s => (δ s).phi k
    psi := fun k => (w.psi k).map fun x => plusWf e x fun s => (δ s).psi k }

/-- The call with arguments `x + e δ`; tensors that are not given stay so. -/
def UArgs.plus (A : UArgs d) (e : ℝ) (D : UDir d) : UArgs d :=
  {A with
    v := plusModel e A.v D.v
    rho := plusModel e A.rho D.rho
    ampP := A.ampP.map fun a => plusAmp e a D.ampP
    ampV := fun k => (A.ampV k).map fun a => plusAmp e a (D.ampV k)
    wf := A.wf.plus e D.wf }

/-- `δ` for the wavefields that are given, zero for the others. -/
def UWf.givenOf (w : UWf d) (δ : Wavefields d ℝ) : Wavefields d ℝ :=
  ⟨if w.p.isSome then δ.p else fun _ => 0, fun k => if (w.v k).isSome then δ.v k else fun _ => 0,
    fun k => if (w.phi k).isSome then δ.phi k else fun _ => 0,
    fun k => if (w.psi k).isSome then δ.psi k else fun _ => 0⟩

/-- `(grP * receiver_amplitudes_p).sum()`, the same for the velocity components, and
`(g * final wavefields).sum()`, for one shot. -/
noncomputable def UShot.pair (r : UShot d) (A : UArgs d) (S : Finset (Cell d)) (grP : ℕ → ℕ → ℝ)
    (grV : Fin d → ℕ → ℕ → ℝ) (g : Wavefields d ℝ) : ℝ :=
  tracePair (locCount A.rcvP) grP r.tracesP + ∑ k, tracePair (locCount (A.rcvV k)) (grV k) (r.tracesV k) +
    r.out.inner S g

/-! ### Lemmas about the propagator -/

section
variable {C : Cfg d np mp nv mv ℝ}

/-- A sum over locations as a sum over the cells they are in. -/
theorem sum_locs {n : ℕ} {loc : Fin n → Option (Cell d)} (S : Finset (Cell d))
    (hS : ∀ i, ((loc i).getD fun _ => 0) ∈ S)
    {dec : ∀ (i : Fin n) (x : Cell d), Decidable (((loc i).getD fun _ => 0) = x)} (nt : ℕ) (δ : Fld d ℝ)
    (y : ℕ → Fin n → ℝ) :
    ∑ x ∈ S, δ x * (∑ t ∈ Finset.range nt, ∑ i, @ite ℝ (((loc i).getD fun _ => 0) = x) (dec i x) (y t i) 0) =
      traceInner nt (fun _ i => gatherAt δ (loc i)) y := by
  classical
  simp only [Finset.mul_sum, traceInner]
  rw [Finset.sum_comm]
  refine Finset.sum_congr rfl fun t _ => ?_
  rw [Finset.sum_comm]
  refine Finset.sum_congr rfl fun i _ => ?_
  rw [Finset.sum_eq_single ((loc i).getD fun _ => 0)]
  · rw [if_pos rfl]; rfl
  · intro x _ hx
    rw [if_neg (Ne.symm hx), mul_zero]
  · intro hn
    exact absurd (hS i) hn

theorem srcP_modelCells (h : C.WF) (i : Fin np) : ((C.srcP i).getD fun _ => 0) ∈ C.modelCells := by
  unfold Cfg.modelCells
  rw [mem_box]
  intro k
  have h1 := h.w0_nonneg k
  have h2 := h.w1_nonneg k
  have h3 := h.size k
  have h4 : 0 < (C.acc.pad : ℤ) := by cases C.acc <;> decide
  cases hc : C.srcP i with
  | none => simp only [Option.getD_none]; omega
  | some c =>
      have := h.srcP_in i c hc k
      simp only [Option.getD_some]
      omega

theorem srcV_modelCells (h : C.WF) (j : Fin d) (i : Fin (nv j)) :
    ((C.srcV j i).getD fun _ => 0) ∈ C.modelCells := by
  unfold Cfg.modelCells
  rw [mem_box]
  intro k
  have h1 := h.w0_nonneg k
  have h2 := h.w1_nonneg k
  have h3 := h.size k
  have h4 : 0 < (C.acc.pad : ℤ) := by cases C.acc <;> decide
  cases hc : C.srcV j i with
  | none => simp only [Option.getD_none]; omega
  | some c =>
      have := (h.srcV_in j i c hc).1 k
      simp only [Option.getD_some]
      omega

theorem hasDeriv_scaled {nt n : ℕ} (a a' : ℕ → Fin n → ℝ) (m : ℝ → Fld d ℝ) (δ : Fld d ℝ)
    (hm : ∀ c, HasDerivAt (fun e => m e c) (δ c) 0) (loc : Fin n → Option (Cell d)) (dt : ℝ) (t : ℕ) (i : Fin n) :
    HasDerivAt (fun e => (a t i + e * a' t i) * gatherAt (m e) (loc i) * dt)
      (a' t i * (gatherAt (m 0) (loc i) * dt) + gatherAt δ (loc i) * (a t i * dt)) 0 := by
  have h1 := ((hasDeriv_lin (a t i) (a' t i)).mul (hm ((loc i).getD fun _ => 0))).mul_const dt
  refine h1.congr_deriv ?_
  simp only [zero_mul, add_zero, gatherAt]
  ring

/-- The derivative through the scalings of the source amplitudes, in the directions `aP'` and `aV'`. -/
theorem Cfg.scaled_deriv (h : C.WF) (hb : C.Big) (hr : C.ratio = 1) (nt : ℕ) (grP : ℕ → Fin mp → ℝ)
    (grV : (k : Fin d) → ℕ → Fin (mv k) → ℝ) (g : Wavefields d ℝ)
    (K : ℝ → Fld d ℝ) (B : ℝ → Fin d → Fld d ℝ) (δK : Fld d ℝ) (δB : Fin d → Fld d ℝ)
    (hK0 : K 0 = C.K) (hB0 : B 0 = C.B) (hK : ∀ c, HasDerivAt (fun e => K e c) (δK c) 0)
    (hB : ∀ k c, HasDerivAt (fun e => B e k c) (δB k c) 0)
    (aP aP' : ℕ → Fin np → ℝ) (aV aV' : (k : Fin d) → ℕ → Fin (nv k) → ℝ)
    (w δw : Wavefields d ℝ) {gk gb : Bool} (hgk : gk = true ∨ δK = fun _ => 0)
    (hgb : gb = true ∨ δB = fun _ _ => 0) {cb cb' : Option ℕ} {r : FResult d mp mv ℝ} {b : BResult d np nv ℝ}
    (hcf : 0 < nt → 0 < cb.getD nt) (hcf' : 0 < nt → 0 < cb'.getD nt)
    (hf : C.forward gk gb cb nt (scaleAmpP C aP) (scaleAmpV C aV) w.toInit = .ok r)
    (hbk : C.backward gk gb cb' nt r.storeK r.storeB grP grV g.toInit = .ok b) :
    HasDerivAt (fun e => (C.withM (K e) (B e)).obj nt grP grV g
        (scaleAmpP (C.withM (K e) (B e)) fun t i => aP t i + e * aP' t i)
        (scaleAmpV (C.withM (K e) (B e)) fun k t i => aV k t i + e * aV' k t i) (w.plus e δw))
      (∑ c ∈ C.modelCells, δK c * totK C nt aP b c + ∑ k, ∑ c ∈ C.modelCells, δB k c * totB C nt aV b k c
        + traceInner nt aP' (fun t i => b.gfP t i * gatherAt C.K (C.srcP i) * C.dt)
        + ∑ k, traceInner nt (aV' k) (fun t i => b.gfV k t i * gatherAt (C.B k) (C.srcV k i) * C.dt)
        + δw.inner C.userCells b.out) 0 := by
  have hd := Cfg.obj_deriv_all h hb hr nt grP grV g K B δK δB hK0 hB0 hK hB
    (fun e => scaleAmpP (C.withM (K e) (B e)) fun t i => aP t i + e * aP' t i) _
    (fun t i => hasDeriv_scaled (nt := nt) aP aP' K δK hK C.srcP C.dt t i)
    (fun e => scaleAmpV (C.withM (K e) (B e)) fun k t i => aV k t i + e * aV' k t i) _
    (fun k t i => hasDeriv_scaled (nt := nt) (aV k) (aV' k) (fun e => B e k) (δB k) (hB k) (C.srcV k) C.dt t i)
    w δw hgk hgb hcf hcf' (by
      simp only [withM_zero hK0 hB0]
      simp only [zero_mul, add_zero]
      exact hf) hbk
  refine hd.congr_deriv ?_
  simp only [hK0, hB0]
  have t1 : ∀ {n : ℕ} (x y : ℕ → Fin n → ℝ) (G : Fin n → ℝ) (a : ℕ → Fin n → ℝ) (m : Fin n → ℝ),
      traceInner nt (fun t i => x t i * (m i * C.dt) + G i * (a t i * C.dt)) y =
        traceInner nt x (fun t i => y t i * m i * C.dt) + traceInner nt (fun _ i => G i) fun t i => y t i * (a t i * C.dt) := by
    intro n x y G a m
    simp only [traceInner, ← Finset.sum_add_distrib]
    exact Finset.sum_congr rfl fun t _ => Finset.sum_congr rfl fun i _ => by ring
  have hKs : ∑ c ∈ C.modelCells, δK c * totK C nt aP b c = ∑ c ∈ C.modelCells, δK c * b.gK c +
      traceInner nt (fun _ i => gatherAt δK (C.srcP i)) fun t i => b.gfP t i * (aP t i * C.dt) := by
    simp only [totK, mul_add, Finset.sum_add_distrib]
    rw [sum_locs C.modelCells (srcP_modelCells h) nt δK fun t i => b.gfP t i * (aP t i * C.dt)]
  have hBs : ∀ k, ∑ c ∈ C.modelCells, δB k c * totB C nt aV b k c = ∑ c ∈ C.modelCells, δB k c * b.gB k c +
      traceInner nt (fun _ i => gatherAt (δB k) (C.srcV k i)) fun t i => b.gfV k t i * (aV k t i * C.dt) := fun k => by
    simp only [totB, mul_add, Finset.sum_add_distrib]
    rw [sum_locs C.modelCells (srcV_modelCells h k) nt (δB k) fun t i => b.gfV k t i * (aV k t i * C.dt)]
  rw [hKs, Finset.sum_congr rfl fun k _ => hBs k, t1 aP' b.gfP]
  simp only [t1, Finset.sum_add_distrib]
  ring

end

/-! ### Lemmas about `prepare_models` -/

theorem hasDeriv_inverse {rf : ℝ} (hrf : 0 ≤ rf) {m : ℝ → ℝ} {m' : ℝ} (hm : HasDerivAt m m' 0) (h0 : |m 0| ≠ rf) :
    HasDerivAt (fun e => if rf < |m e| then 1 / m e else 0) (if rf < |m 0| then -m' / m 0 ^ 2 else 0) 0 := by
  have hc : ContinuousAt (fun e => |m e|) 0 := hm.continuousAt.abs
  by_cases h : rf < |m 0|
  · rw [if_pos h]
    have hne : m 0 ≠ 0 := fun h1 => by rw [h1, abs_zero] at h; linarith
    have h2 := hm.fun_inv hne
    refine h2.congr_of_eventuallyEq ?_
    filter_upwards [hc.eventually_const_lt h] with e he
    rw [if_pos he, one_div]
  · rw [if_neg h]
    have hlt : |m 0| < rf := lt_of_le_of_ne (not_lt.1 h) h0
    refine (hasDerivAt_const (0 : ℝ) (0 : ℝ)).congr_of_eventuallyEq ?_
    filter_upwards [hc.eventually_lt_const hlt] with e he
    rw [if_neg (not_lt.2 he.le)]

/-- The direction of the bulk modulus. -/
def dirK (v rho δv δρ : Fld d ℝ) : Fld d ℝ := fun c => rho c * (2 * v c) * δv c + v c ^ 2 * δρ c

/-- The directions of the buoyancies. -/
noncomputable def dirB (n : Fin d → ℤ) (rf : ℝ) (rho δρ : Fld d ℝ) (k : Fin d) : Fld d ℝ := fun c =>
  if rf < |meanRho n rho k c| then -meanRho n δρ k c / meanRho n rho k c ^ 2 else 0

theorem hasDeriv_prepareK (v rho δv δρ : Fld d ℝ) (c : Cell d) :
    HasDerivAt (fun e : ℝ => prepareK (fun c => v c + e * δv c) (fun c => rho c + e * δρ c) c)
      (dirK v rho δv δρ c) 0 := by
  have h1 := (hasDeriv_lin (rho c) (δρ c)).mul ((hasDeriv_lin (v c) (δv c)).fun_pow 2)
  refine h1.congr_deriv ?_
  simp only [dirK, zero_mul, add_zero]
  norm_num
  ring

theorem hasDeriv_meanRho (n : Fin d → ℤ) (rho δρ : Fld d ℝ) (k : Fin d) (c : Cell d) :
    HasDerivAt (fun e : ℝ => meanRho n (fun c => rho c + e * δρ c) k c) (meanRho n δρ k c) 0 := by
  unfold meanRho
  split_ifs
  · exact ((hasDeriv_lin (rho c) (δρ c)).add (hasDeriv_lin (rho (c.shift k 1)) (δρ (c.shift k 1)))).div_const 2
  · exact hasDerivAt_const _ _

theorem hasDeriv_prepareB {n : Fin d → ℤ} {rf : ℝ} (hrf : 0 ≤ rf) (rho δρ : Fld d ℝ) (k : Fin d) (c : Cell d)
    (hc : c k + 1 < n k → |meanRho n rho k c| ≠ rf) :
    HasDerivAt (fun e : ℝ => prepareB n rf (fun c => rho c + e * δρ c) k c) (dirB n rf rho δρ k c) 0 := by
  by_cases h : c k + 1 < n k
  · have h1 := hasDeriv_inverse hrf (hasDeriv_meanRho n rho δρ k c) (by simpa only [zero_mul, add_zero] using hc h)
    simp only [zero_mul, add_zero] at h1
    exact h1
  · have e0 : ∀ r : Fld d ℝ, meanRho n r k c = 0 := fun r => if_neg h
    have : ¬rf < |(0 : ℝ)| := by rw [abs_zero]; exact not_lt.2 hrf
    simp only [prepareB, dirB, e0, if_neg this]
    exact hasDerivAt_const _ _

/-- The transposes of `prepare_models`. -/
theorem prepare_adj (n : Fin d → ℤ) (rf : ℝ) (v rho δv δρ gK : Fld d ℝ) (gB : Fin d → Fld d ℝ) :
    ∑ c ∈ box (fun _ => 0) n, dirK v rho δv δρ c * gK c +
        ∑ k, ∑ c ∈ box (fun _ => 0) n, dirB n rf rho δρ k c * gB k c =
      ∑ c ∈ box (fun _ => 0) n, δv c * prepareVT v rho gK c +
        ∑ c ∈ box (fun _ => 0) n, δρ c * prepareRhoT n rf v rho gK gB c := by
  have hB : ∀ k, ∑ c ∈ box (fun _ => 0) n, dirB n rf rho δρ k c * gB k c =
      ∑ c ∈ box (fun _ => 0) n, δρ c * (buoyT n rf rho gB k c / 2 + buoyT n rf rho gB k (c.shift k (-1)) / 2) := by
    intro k
    have e1 : ∀ c ∈ box (fun _ => 0) n, dirB n rf rho δρ k c * gB k c = δρ c * (buoyT n rf rho gB k c / 2) +
        (if c.shift k 1 ∈ box (fun _ => 0) n then δρ (c.shift k 1) else 0) * (buoyT n rf rho gB k c / 2) := by
      intro c hc
      unfold dirB buoyT
      by_cases h : c k + 1 < n k
      · have hs : c.shift k 1 ∈ box (fun _ => 0) n := by
          rw [mem_box] at hc ⊢
          intro j
          have := hc j
          by_cases hj : j = k
          · subst hj
            simp only [Cell.shift, Pi.add_apply, Pi.single_eq_same]
            omega
          · simp only [Cell.shift, Pi.add_apply, Pi.single_eq_of_ne hj, add_zero]
            omega
        rw [if_pos hs, if_pos (show c ∈ box (fun _ => 0) n ∧ c k + 1 < n k from ⟨hc, h⟩)]
        split_ifs
        · have : meanRho n δρ k c = (δρ c + δρ (c.shift k 1)) / 2 := if_pos h
          rw [this]
          ring
        · ring
      · rw [if_neg (show ¬(c ∈ box (fun _ => 0) n ∧ c k + 1 < n k) from fun h1 => h h1.2)]
        have : meanRho n δρ k c = 0 := if_neg h
        rw [this]
        simp
    rw [Finset.sum_congr rfl e1, Finset.sum_add_distrib]
    have e2 := dot_shift (S := box (fun _ => 0) n) (u := fun c => if c ∈ box (fun _ => 0) n then δρ c else 0)
      (w := fun c => buoyT n rf rho gB k c / 2) (fun c hc => if_neg hc)
      (fun c hc => by simp [buoyT, hc]) k 1
    rw [e2, ← Finset.sum_add_distrib]
    refine Finset.sum_congr rfl fun c hc => ?_
    rw [if_pos hc]
    ring
  rw [Finset.sum_congr rfl fun k _ => hB k, Finset.sum_comm, ← Finset.sum_add_distrib, ← Finset.sum_add_distrib]
  refine Finset.sum_congr rfl fun c _ => ?_
  simp only [dirK, prepareVT, prepareRhoT, mul_add, Finset.mul_sum]
  ring

/-! ### Lemmas about calls -/

theorem Cfg.createOrPad_getD (C : Cfg d np mp nv mv ℝ) (w : Option (Fld d ℝ)) :
    C.createOrPad (some (w.getD fun _ => 0)) = C.createOrPad w := by
  cases w with
  | some w => rfl
  | none =>
      funext c
      simp only [Cfg.createOrPad, Option.getD_none, ite_self]

/-- The wavefields with zero for those that are not given. -/
def UWf.zeroed (w : UWf d) (s : ℕ) : Wavefields d ℝ :=
  ⟨((w.init s).p).getD fun _ => 0, fun k => ((w.init s).v k).getD fun _ => 0,
    fun k => ((w.init s).phi k).getD fun _ => 0, fun k => ((w.init s).psi k).getD fun _ => 0⟩

theorem prepare_zeroed (C : Cfg d np mp nv mv ℝ) (w : UWf d) (s : ℕ) :
    C.prepare (w.zeroed s).toInit = C.prepare (w.init s) := by
  simp only [Cfg.prepare, UWf.zeroed, Wavefields.toInit, Cfg.createOrPad_getD]

theorem UWf.plus_zeroed (w : UWf d) (e : ℝ) (δ : ℕ → Wavefields d ℝ) (s : ℕ) :
    (w.plus e δ).zeroed s = (w.zeroed s).plus e (w.givenOf (δ s)) := by
  simp only [UWf.zeroed, UWf.init, UWf.plus, Wavefields.plus, UWf.givenOf, Wavefields.mk.injEq]
  exact ⟨wf_plus _ _ _ _, funext fun k => wf_plus _ _ _ _, funext fun k => wf_plus _ _ _ _,
    funext fun k => wf_plus _ _ _ _⟩

theorem UWf.plus_list (w : UWf d) (e : ℝ) (δ : ℕ → Wavefields d ℝ) :
    (w.plus e δ).list.map (Option.map WfT.size) = w.list.map (Option.map WfT.size) := by
  simp only [UWf.list, UWf.plus, List.map_append, List.map_cons, List.map_nil, List.map_ofFn,
      Function.comp_def, wf_plus_size]

/-- The plan of the call with arguments `x + e δ`. -/
noncomputable def UArgs.planPlus (A : UArgs d) (P : Plan d) (e : ℝ) (D : UDir d) : Plan d :=
  P.withModels true [((A.plus e D).v, .replicate), ((A.plus e D).rho, .replicate)]

theorem plus_good {A : UArgs d} {P : Plan d} (h : A.setup.Good P) (hnb : 0 < P.nb)
    (hmv : A.opts.maxVel ≠ none) (e : ℝ) (D : UDir d) : (A.plus e D).setup.Good (A.planPlus P e D) := by
  refine ((h.withModels (ms := [((A.plus e D).v, .replicate), ((A.plus e D).rho, .replicate)])
    (mv := maxAbs (A.plus e D).v) hnb rfl ?_).revalue
    (amps := (A.plus e D).ampP :: List.ofFn (A.plus e D).ampV) (wfs := (A.plus e D).wf.list) ?_ ?_)
  · have := h.maxVel
    unfold setMaxVelR at this ⊢
    cases hm : A.opts.maxVel with
    | none => exact absurd hm hmv
    | some x =>
        simp only [UArgs.setup, Opts.setup, hm] at this ⊢
        exact this
  · simp only [UArgs.setup, Opts.setup, UArgs.plus, List.map_cons, List.map_ofFn, Function.comp_def, amp_plus_size]
  · simp only [UArgs.setup, Opts.setup, UArgs.plus, UWf.plus_list]

theorem plus_models {A : UArgs d} (e : ℝ) {D : UDir d} (hv : D.v = fun _ _ => 0) (hs : D.rho = fun _ _ => 0) :
    (A.plus e D).v = A.v ∧ (A.plus e D).rho = A.rho := by
  constructor
  · simp only [UArgs.plus, plusModel, hv, mul_zero, add_zero]
    rfl
  · simp only [UArgs.plus, plusModel, hs, mul_zero, add_zero]
    rfl

theorem plus_good_zero {A : UArgs d} {P : Plan d} (h : A.setup.Good P) (e : ℝ)
    (D : UDir d) (hv : D.v = fun _ _ => 0) (hs : D.rho = fun _ _ => 0) : (A.plus e D).setup.Good P := by
  obtain ⟨hv', hs'⟩ := plus_models (A := A) e hv hs
  have := h.revalue (amps := (A.plus e D).ampP :: List.ofFn (A.plus e D).ampV) (wfs := (A.plus e D).wf.list)
    (by simp only [UArgs.setup, Opts.setup, UArgs.plus, List.map_cons, List.map_ofFn, Function.comp_def, amp_plus_size])
    (by simp only [UArgs.setup, Opts.setup, UArgs.plus, UWf.plus_list])
  unfold UArgs.setup
  rw [hv', hs']
  exact this

/-- What is needed of a call for its propagator to run. -/
structure Fwd (A : UArgs d) (P : Plan d) (s : ℕ) (cf : ℤ) : Prop where
  good : A.setup.Good P
  pre : ¬A.Pre
  lt : s < P.nb
  pml : PmlOk P
  loc : ∀ l, some l ∈ A.setup.srcs ++ A.setup.rcvs → WholeIgnored d l s
  last : ∀ k, 0 < P.w1 k ∨ (P.ext k).2 = A.v.shape k ∨ P.BeforeLast k s (A.srcV k) ∧ P.BeforeLast k s (A.rcvV k)
  freq : checkCallbackFrequency A.opts.callbackFreq = .ok cf
  interval : 0 < P.interval
  nt : A.opts.callback = true ∨ P.ratio * P.interval ≤ P.nt ∨ P.nt ≤ 0

/-- What is needed of a call for its propagator to run forward and backward. -/
structure Runs (A : UArgs d) (P : Plan d) (s : ℕ) (cf : ℤ) : Prop where
  good : A.setup.Good P
  pre : ¬A.Pre
  lt : s < P.nb
  pml : PmlOk P
  loc : ∀ l, some l ∈ A.setup.srcs ++ A.setup.rcvs → WholeIgnored d l s
  last : ∀ k, 0 < P.w1 k ∨ (P.ext k).2 = A.v.shape k ∨ P.BeforeLast k s (A.srcV k) ∧ P.BeforeLast k s (A.rcvV k)
  big : ∀ k, (P.acc.pad : ℤ) + 1 ≤ (P.ext k).2 - (P.ext k).1 + P.w1 k
  freq : checkCallbackFrequency A.opts.callbackFreq = .ok cf
  interval : 0 < P.interval
  nt : P.ratio * P.interval ≤ P.nt ∨ P.nt ≤ 0

theorem get_succ {α : Type*} (f : Fin d → α) (o : α) (k : Fin d) : (o :: List.ofFn f)[(k : ℕ) + 1]? = some (f k) := by
  simp

section
variable {A : UArgs d} {P : Plan d} {s : ℕ} {cf : ℤ} (h : Fwd A P s cf)
include h

theorem Fwd.mem (o : Option LocT) (ho : o ∈ A.setup.srcs ++ A.setup.rcvs) (l : LocT) (hl : o = some l) :
    WholeIgnored d l s := h.loc l (hl ▸ ho)

theorem Fwd.rcvP : Placed P A.rcvP s ((shotIn A.setup P A.opts.timeTaper s).rcv 0) :=
  rcv_placed h.good h.lt A.opts.timeTaper (j := 0) rfl (h.mem _ (List.mem_append_right _ List.mem_cons_self))

theorem Fwd.rcvV (k : Fin d) : Placed P (A.rcvV k) s ((shotIn A.setup P A.opts.timeTaper s).rcv (k + 1)) :=
  rcv_placed h.good h.lt A.opts.timeTaper (j := k + 1) (get_succ _ _ k)
    (h.mem _ (List.mem_append_right _ (List.mem_of_getElem? (get_succ _ _ k))))

theorem Fwd.wf : (cfgOf A.rfmax (shotIn A.setup P A.opts.timeTaper s)).WF := by
  have hnb : 0 < P.nb := by have := h.lt; omega
  have hext := h.good.ext_lt hnb ⟨A.v, List.mem_cons_self⟩
  have hC : OnGrid P (cfgOf A.rfmax (shotIn A.setup P A.opts.timeTaper s)) :=
    ⟨rfl, rfl, rfl, rfl, rfl, rfl, rfl, rfl, rfl, rfl⟩
  have hsP : Placed P A.srcP s _ := src_placed h.good h.lt A.opts.timeTaper (j := 0) rfl
    (h.mem _ (List.mem_append_left _ List.mem_cons_self))
  have hsV : ∀ k, Placed P (A.srcV k) s _ := fun k => src_placed h.good h.lt A.opts.timeTaper (j := k + 1) (get_succ _ _ k)
    (h.mem _ (List.mem_append_left _ (List.mem_of_getElem? (get_succ _ _ k))))
  have last : ∀ k o, (o = A.srcV k ∨ o = A.rcvV k) → ∀ l : List (Option (Cell d)), Placed P o s l →
      ∀ (i : Fin l.length) c, l.get i = some (P.at c) → P.Inside c ∧ c k < P.grid.hi k + P.grid.w1 k := by
    intro k o ho l hl i c e
    have hin := hl.inside' i c e
    refine ⟨hin, ?_⟩
    have hk := hin k
    have hw := h.good.widths k
    have main : 0 < P.w1 k ∨ P.BeforeLast k s o := by
      rcases h.last k with h1 | h1 | h1
      · exact .inl h1
      · refine .inr ?_
        cases o with
        | none => intro i hi; cases hi
        | some l' =>
            have hl' : A.srcV k = some l' ∨ A.rcvV k = some l' := ho.imp Eq.symm Eq.symm
            have hm : some l' ∈ A.setup.srcs ++ A.setup.rcvs := by
              rcases hl' with h2 | h2
              · exact List.mem_append_left _ (h2 ▸ List.mem_of_getElem? (get_succ A.srcV A.srcP k))
              · exact List.mem_append_right _ (h2 ▸ List.mem_of_getElem? (get_succ A.rcvV A.rcvP k))
            refine before_last h.good h.lt hm (h.loc _ hm) fun hb => h.pre (.inr ⟨k, l', hl', ?_⟩)
            rwa [h1] at hb
      · rcases ho with rfl | rfl
        · exact .inr h1.1
        · exact .inr h1.2
    simp only [Plan.grid]
    rcases main with h1 | h1
    · omega
    · have hc : locCell (d := d) o s i = some c := by
        have := hl.get i
        rw [e] at this
        cases hc : locCell (d := d) o s i with
        | none => rw [hc] at this; cases this
        | some c' =>
            rw [hc] at this
            rw [Plan.at_inj.1 (Option.some.inj this)]
      have := h1 i (i.isLt.trans_eq hl.length) c hc
      omega
  exact hC.wf h.good hext h.pml (fun i c e => hsP.inside' i c e) (fun i c e => h.rcvP.inside' i c e)
    (fun k i c e => last k _ (.inl rfl) _ (hsV k) i c e) (fun k i c e => last k _ (.inr rfl) _ (h.rcvV k) i c e)

/-- The propagator runs every time step. -/
theorem Fwd.ratio : 0 < (P.ratio * P.interval).toNat := by
  have := Scalar.SetupGood.ratio_pos h.good
  have : 0 < P.ratio * P.interval := mul_pos (by omega) h.interval
  omega

end

section
variable {A : UArgs d} {P : Plan d} {s : ℕ} {cf : ℤ} (h : Runs A P s cf)
include h

theorem Runs.fwd : Fwd A P s cf :=
  ⟨h.good, h.pre, h.lt, h.pml, h.loc, h.last, h.freq, h.interval, .inr h.nt⟩

theorem Runs.mem (o : Option LocT) (ho : o ∈ A.setup.srcs ++ A.setup.rcvs) (l : LocT) (hl : o = some l) :
    WholeIgnored d l s := h.fwd.mem o ho l hl

theorem Runs.rcvP : Placed P A.rcvP s ((shotIn A.setup P A.opts.timeTaper s).rcv 0) := h.fwd.rcvP

theorem Runs.rcvV (k : Fin d) : Placed P (A.rcvV k) s ((shotIn A.setup P A.opts.timeTaper s).rcv (k + 1)) := h.fwd.rcvV k

theorem Runs.wf : (cfgOf A.rfmax (shotIn A.setup P A.opts.timeTaper s)).WF := h.fwd.wf

theorem Runs.cfgBig : (cfgOf A.rfmax (shotIn A.setup P A.opts.timeTaper s)).Big := fun k => by
  have := h.big k
  have := nStag_eq P k
  show P.w0 k + 3 * (P.acc.pad : ℤ) ≤ P.n true k
  omega

theorem Runs.ratio : 0 < (P.ratio * P.interval).toNat := h.fwd.ratio

theorem Runs.plus (hmv : A.opts.maxVel ≠ none) (e : ℝ) (D : UDir d) : Runs (A.plus e D) (A.planPlus P e D) s cf :=
  ⟨plus_good h.good (by have := h.lt; omega) hmv e D, h.pre, h.lt, h.pml, h.loc, h.last, h.big, h.freq, h.interval, h.nt⟩

theorem Runs.plus_zero (e : ℝ) (D : UDir d) (hv : D.v = fun _ _ => 0) (hs : D.rho = fun _ _ => 0) :
    Runs (A.plus e D) P s cf :=
  ⟨plus_good_zero h.good e D hv hs, h.pre, h.lt, h.pml, h.loc, h.last, h.big, h.freq, h.interval, h.nt⟩

/-- The pairing of the outputs of a call in terms of the propagator. -/
theorem acoustic_pair (grP : ℕ → ℕ → ℝ) (grV : Fin d → ℕ → ℕ → ℝ) (g : Wavefields d ℝ) :
    ∃ r, A.acoustic s = .ok (some r) ∧
      let C := cfgOf A.rfmax (shotIn A.setup P A.opts.timeTaper s)
      r.pair A (outCells P) grP grV g = C.obj P.nt.toNat (fun t i => downT P A.opts.timeTaper (grP i) t)
        (fun k t i => downT P A.opts.timeTaper (grV k i) t) g
        (scaleAmpP C fun t i => upAmps P A.opts.timeTaper A.ampP s t i)
        (scaleAmpV C fun k t i => upAmps P A.opts.timeTaper (A.ampV k) s t i) (A.wf.zeroed s) := by
  obtain ⟨r, hrun, hout, htp, htv⟩ := runWith_spec A (A.wf.init s) cf
    (shotIn A.setup P A.opts.timeTaper s) (cfgOf A.rfmax (shotIn A.setup P A.opts.timeTaper s)) h.wf h.ratio
    (cb_pos h.freq h.ratio (.inr h.nt)) (finite_of_pmlOk' h.good h.pml true)
  have hcall : A.acoustic s = .ok (some r) := call_ok.2 ⟨h.pre, P, cf, h.good, h.freq, hrun⟩
  refine ⟨r, hcall, ?_⟩
  have huc : (cfgOf A.rfmax (shotIn A.setup P A.opts.timeTaper s)).userCells = outCells P := by
    unfold Cfg.userCells outCells
    congr 1
    funext k
    have := nStag_eq P k
    rw [Acc.order_div_two]
    show P.n true k - 2 * (P.acc.pad : ℤ) + 1 = _
    omega
  have haV : (fun (k : Fin d) (t : ℕ) (i : Fin ((shotIn A.setup P A.opts.timeTaper s).src (k + 1)).length) =>
      (shotIn A.setup P A.opts.timeTaper s).amp (k + 1) t i) =
      fun k t (i : Fin _) => upAmps P A.opts.timeTaper (A.ampV k) s t i := by
    funext k t i
    have e : A.setup.amps[(k : ℕ) + 1]? = some (A.ampV k) := get_succ A.ampV A.ampP k
    rw [amp_eq _ _ _ _ e]
  rw [haV] at hout htp htv
  dsimp only
  unfold UShot.pair Cfg.obj
  dsimp only
  rw [hout, htp, htv, huc, prepare_zeroed, ← tracePair_eq h.good A.opts.timeTaper s, ← h.rcvP.length,
    Finset.sum_congr rfl fun k _ => (tracePair_eq h.good A.opts.timeTaper s (grV k) _).symm]
  simp only [← (h.rcvV _).length]
  rfl

end

end Dw.Acoustic
