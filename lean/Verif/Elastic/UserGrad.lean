import Verif.Elastic.GradAll
import Verif.Props.ElasticScheme
import Verif.Acoustic.UserGrad

/-!
# Gradients of `elastic`

What `backward()` gives for a call of `elastic` (`elastic.py` 600-1085): automatic differentiation goes through
`downsample_and_movedim` and the scaling of the pressure traces, the propagator (`ElasticForwardFunc.backward`), the
scalings of the source amplitudes (924-976), `prepare_parameters` (23-124), `upsample`, and the slicing and padding
of the models.
-/

namespace Dw.Elastic

open Setup Resample
open Born (gatherAt)
open Scalar (NoElements maxAbs upAmps plusAmp plusWf outCells PmlOk WholeIgnored traceInner)
open Acoustic (Finite meanRho buoyT dirB hasDeriv_inverse hasDeriv_scaled sum_locs prepare_adj hasDeriv_lin)

variable {d np mp : ℕ} {nv mv : Fin d → ℕ}

/-! ### The scalings of the source amplitudes -/

open Classical in
/-- The gradients of the buoyancies: from the propagator and from the scaling of the amplitudes `a`. -/
noncomputable def totB (C : Cfg d np mp nv mv ℝ) (nt : ℕ) (a : (k : Fin d) → ℕ → Fin (nv k) → ℝ) (b : BResult d np nv ℝ)
    (k : Fin d) : Fld d ℝ := fun p =>
  b.gr.b k p + ∑ t ∈ Finset.range nt, ∑ i, if ((C.srcV k i).getD fun _ => 0) = p then b.gfV k t i * (a k t i * C.dt) else 0

/-! ### `prepare_parameters` -/

/-- The sum of the inverse shear moduli around the point of a shear stress. -/
noncomputable def invSum (mu : Fld d ℝ) (p : Sh d) : Fld d ℝ := fun c =>
  1 / mu ((c.shift p.1.1 1).shift p.1.2 1) + 1 / mu c + 1 / mu (c.shift p.1.1 1) + 1 / mu (c.shift p.1.2 1)

/-- The points of a shear stress that are not at the end, with four large enough moduli around them. -/
def MuMask (n : Fin d → ℤ) (rfmax : ℝ) (mu : Fld d ℝ) (p : Sh d) (c : Cell d) : Prop :=
  (c p.1.1 + 1 < n p.1.1 ∧ c p.1.2 + 1 < n p.1.2) ∧ rfmax < |mu ((c.shift p.1.1 1).shift p.1.2 1)| ∧ rfmax < |mu c| ∧
    rfmax < |mu (c.shift p.1.1 1)| ∧ rfmax < |mu (c.shift p.1.2 1)|

open Classical in
/-- Minus the gradient of the sum of inverses, from that of the harmonic mean (`elastic.py` 41-97). -/
noncomputable def muST (n : Fin d → ℤ) (rfmax : ℝ) (mu : Fld d ℝ) (gS : Sh d → Fld d ℝ) (p : Sh d) : Fld d ℝ := fun c =>
  if c ∈ box (fun _ => 0) n ∧ MuMask n rfmax mu p c then gS p c * (4 / invSum mu p c ^ 2) else 0

/-- The gradient of the shear modulus: each modulus is in four harmonic means per pair of dimensions. -/
noncomputable def prepareMuT (n : Fin d → ℤ) (rfmax : ℝ) (mu gM : Fld d ℝ) (gS : Sh d → Fld d ℝ) : Fld d ℝ := fun c =>
  gM c + ∑ p : Sh d, (muST n rfmax mu gS p c + muST n rfmax mu gS p (c.shift p.1.1 (-1)) +
    muST n rfmax mu gS p (c.shift p.1.2 (-1)) + muST n rfmax mu gS p ((c.shift p.1.2 (-1)).shift p.1.1 (-1))) / mu c ^ 2

/-- The gradient of the density (`elastic.py` 105-122): each density is in two means per dimension. -/
noncomputable def rhoT (n : Fin d → ℤ) (rfmax : ℝ) (rho : Fld d ℝ) (gB : Fin d → Fld d ℝ) : Fld d ℝ := fun p =>
  ∑ k, (buoyT n rfmax rho gB k p / 2 + buoyT n rfmax rho gB k (p.shift k (-1)) / 2)

/-- The gradient of the buoyancy (`elastic.py` 102-104). -/
noncomputable def prepareBT (n : Fin d → ℤ) (rfmax : ℝ) (bu : Fld d ℝ) (gB : Fin d → Fld d ℝ) : Fld d ℝ := fun p =>
  if rfmax < |bu p| then -rhoT n rfmax (prepareRho rfmax bu) gB p / bu p ^ 2 else 0

/-! ### A call -/

/-- The gradients from one shot: of the padded models, of the source amplitudes, and of the initial wavefields. -/
structure UGrad (d : ℕ) where
  lam : Fld d ℝ
  mu : Fld d ℝ
  buoyancy : Fld d ℝ
  ampP : ℕ → ℕ → ℝ
  ampV : Fin d → ℕ → ℕ → ℝ
  wf : Wavefields d ℝ

/-- What the backward pass `b` of the propagator gives for the arguments of the user; `mu` and `bu` are padded
models, `aV` the upsampled amplitudes of the velocity sources. -/
noncomputable def gradsOf (A : UArgs d) (P : Plan d) (mu bu : Fld d ℝ) (C : Cfg d np mp nv mv ℝ)
    (aV : (k : Fin d) → ℕ → Fin (nv k) → ℝ) (b : BResult d np nv ℝ) : UGrad d :=
  { lam := b.gr.l
    mu := prepareMuT (P.n true) A.rfmax mu b.gr.m b.gr.s
    buoyancy := prepareBT (P.n true) A.rfmax bu (totB C P.nt.toNat aV b)
    ampP := ampGrad P A.opts.timeTaper A.ampP fun t i => -(b.gfP t i * C.dt)
    ampV := fun k => ampGrad P A.opts.timeTaper (A.ampV k) fun t i =>
      b.gfV k t i * gatherAt (C.B k) (C.srcV k i) * C.dt
    wf := b.out }

open Classical in
/-- The backward pass of shot `s`, from the gradients of receiver amplitudes and final wavefields.  The pressure
traces are minus the mean of the normal stresses (`elastic.py` 1084-1085). -/
noncomputable def gradWith (A : UArgs d) (P : Plan d) (cf : ℤ) (s : ℕ) (mu bu : Fld d ℝ) (bcb : Bool)
    (grP : ℕ → ℕ → ℝ) (grV : Fin d → ℕ → ℕ → ℝ) (g : Wavefields d ℝ) (C : Cfg d np mp nv mv ℝ) :
    Except PyErr (Option (UGrad d)) := do
  let aP : ℕ → Fin np → ℝ := fun t i => upAmps P A.opts.timeTaper A.ampP s t i
  let aV : (k : Fin d) → ℕ → Fin (nv k) → ℝ := fun k t i => upAmps P A.opts.timeTaper (A.ampV k) s t i
  let r ← C.forward A.gradL A.gradM A.gradB (A.opts.cb cf) P.nt.toNat (scaleAmpP C aP) (scaleAmpV C aV) (A.wf.init s)
  let b ← C.backward A.gradL A.gradM A.gradB (if bcb then some cf.toNat else none) P.nt.toNat
    r.storeB r.storeN r.storeS (fun t i => downT P A.opts.timeTaper (fun t => -grP i t / d) t)
    (fun k t i => downT P A.opts.timeTaper (grV k i) t) g.toInit
  return if Finite (P.pml true) then some (gradsOf A P mu bu C aV b) else none

open Classical in
/-- The gradients from shot `s` of a call; `bcb` says whether there is a backward callback. -/
noncomputable def UArgs.backward (A : UArgs d) (s : ℕ) (bcb : Bool) (grP : ℕ → ℕ → ℝ) (grV : Fin d → ℕ → ℕ → ℝ)
    (g : Wavefields d ℝ) : Except PyErr (Option (UGrad d)) := do
  let _ ← raiseIf A.Pre .runtimeError
  let P ← A.setup.plan
  let cf ← checkCallbackFrequency A.opts.callbackFreq
  let S := shotIn A.setup P A.opts.timeTaper s
  gradWith A P cf s (S.model 1) (S.model 2) bcb grP grV g (cfgOf A.rfmax S)

/-- `lamb.grad`, `mu.grad` and `buoyancy.grad`, from the gradients of the shots. -/
noncomputable def UArgs.lamGrad (A : UArgs d) (P : Plan d) (b : ℕ → UGrad d) : ℕ → Fld d ℝ :=
  modelGrad P true (A.lam, .replicate) fun s => (b s).lam

noncomputable def UArgs.muGrad (A : UArgs d) (P : Plan d) (b : ℕ → UGrad d) : ℕ → Fld d ℝ :=
  modelGrad P true (A.mu, .replicate) fun s => (b s).mu

noncomputable def UArgs.buoyancyGrad (A : UArgs d) (P : Plan d) (b : ℕ → UGrad d) : ℕ → Fld d ℝ :=
  modelGrad P true (A.buoyancy, .replicate) fun s => (b s).buoyancy

/-! ### Directions -/

/-- A direction in which the differentiable arguments of a call can change. -/
structure UDir (d : ℕ) where
  lam : ℕ → Fld d ℝ
  mu : ℕ → Fld d ℝ
  buoyancy : ℕ → Fld d ℝ
  ampP : ℕ → ℕ → ℕ → ℝ
  ampV : Fin d → ℕ → ℕ → ℕ → ℝ
  wf : ℕ → Wavefields d ℝ

def UWf.plus (w : UWf d) (e : ℝ) (δ : ℕ → Wavefields d ℝ) : UWf d :=
  { v := fun i => (w.v i).map fun x => plusWf e x fun s => (δ s).v i
    s := fun i => (w.s i).map fun x => plusWf e x fun s => (δ s).s i
    sh := fun p => (w.sh p).map fun x => plusWf e x fun s => (δ s).sh p
    mv := fun i j => (w.mv i j).map fun x => plusWf e x fun s => (δ s).mv i j
    ms := fun i j => (w.ms i j).map fun x => plusWf e x fun s => (δ s).ms i j }

/-- The call with arguments `x + e δ`; tensors that are not given stay so. -/
def UArgs.plus (A : UArgs d) (e : ℝ) (D : UDir d) : UArgs d :=
  {A with
    lam := plusModel e A.lam D.lam
    mu := plusModel e A.mu D.mu
    buoyancy := plusModel e A.buoyancy D.buoyancy
    ampP := A.ampP.map fun a => plusAmp e a D.ampP
    ampV := fun k => (A.ampV k).map fun a => plusAmp e a (D.ampV k)
    wf := A.wf.plus e D.wf }

/-- `δ` for the wavefields that are given, zero for the others. -/
def UWf.givenOf (w : UWf d) (δ : Wavefields d ℝ) : Wavefields d ℝ :=
  ⟨fun i => if (w.v i).isSome then δ.v i else fun _ => 0, fun i => if (w.s i).isSome then δ.s i else fun _ => 0,
    fun p => if (w.sh p).isSome then δ.sh p else fun _ => 0,
    fun i j => if (w.mv i j).isSome then δ.mv i j else fun _ => 0,
    fun i j => if (w.ms i j).isSome then δ.ms i j else fun _ => 0⟩

/-- `(grP * receiver_amplitudes_p).sum()`, the same for the velocity components, and
`(g * final wavefields).sum()`, for one shot. -/
noncomputable def UShot.pair (r : UShot d) (A : UArgs d) (S : Finset (Cell d)) (grP : ℕ → ℕ → ℝ)
    (grV : Fin d → ℕ → ℕ → ℝ) (g : Wavefields d ℝ) : ℝ :=
  tracePair (locCount A.rcvP) grP r.tracesP + ∑ k, tracePair (locCount (A.rcvV k)) (grV k) (r.tracesV k) +
    r.out.inner S g

/-! ### Lemmas about the propagator -/

section
variable {C : Cfg d np mp nv mv ℝ}

theorem srcV_modelCells (h : C.WF) (j : Fin d) (i : Fin (nv j)) :
    ((C.srcV j i).getD fun _ => 0) ∈ C.modelCells := by
  unfold Cfg.modelCells
  rw [mem_box]
  intro k
  have h1 := h.w0_nonneg k
  have h2 := h.w1_nonneg k
  have h3 := h.size k
  have h4 : 0 < (C.acc.pad : ℤ) := by cases C.acc <;> decide
  cases hc : C.srcV j i with
  | none => simp only [Option.getD_none]; omega
  | some c =>
      have := (h.srcV_in j i c hc).1 k
      simp only [Option.getD_some]
      omega

/-- The derivative through the scalings of the source amplitudes, in the directions `aP'` and `aV'`. -/
theorem Cfg.scaled_deriv (h : C.WF) (hb : C.Big) (hr : C.ratio = 1) (nt : ℕ) (grP : ℕ → Fin mp → ℝ)
    (grV : (k : Fin d) → ℕ → Fin (mv k) → ℝ) (g : Wavefields d ℝ)
    (M : ℝ → Grads d ℝ) (δ : Grads d ℝ) (hM0 : M 0 = C.models) (hM : Grads.HasDeriv M δ)
    (aP aP' : ℕ → Fin np → ℝ) (aV aV' : (k : Fin d) → ℕ → Fin (nv k) → ℝ)
    (w δw : Wavefields d ℝ) {gl gm gb : Bool} (hgl : gl = true ∨ δ.l = fun _ => 0)
    (hgm : gm = true ∨ (δ.m = fun _ => 0) ∧ δ.s = fun _ _ => 0) (hgb : gb = true ∨ δ.b = fun _ _ => 0)
    {cb cb' : Option ℕ} {r : FResult d mp mv ℝ} {b : BResult d np nv ℝ}
    (hcf : 0 < nt → 0 < cb.getD nt) (hcf' : 0 < nt → 0 < cb'.getD nt)
    (hf : C.forward gl gm gb cb nt (scaleAmpP C aP) (scaleAmpV C aV) w.toInit = .ok r)
    (hbk : C.backward gl gm gb cb' nt r.storeB r.storeN r.storeS grP grV g.toInit = .ok b) :
    HasDerivAt (fun e => (C.withM (M e)).obj nt grP grV g
        (scaleAmpP (C.withM (M e)) fun t i => aP t i + e * aP' t i)
        (scaleAmpV (C.withM (M e)) fun k t i => aV k t i + e * aV' k t i) (w.plus e δw))
      (δ.inner C.modelCells ⟨b.gr.l, b.gr.m, b.gr.s, totB C nt aV b⟩
        + traceInner nt aP' (fun t i => -(b.gfP t i * C.dt))
        + ∑ k, traceInner nt (aV' k) (fun t i => b.gfV k t i * gatherAt (C.B k) (C.srcV k i) * C.dt)
        + δw.inner C.userCells b.out) 0 := by
  have hd := Cfg.obj_deriv_all h hb hr nt grP grV g M δ hM0 hM
    (fun e => scaleAmpP (C.withM (M e)) fun t i => aP t i + e * aP' t i) (fun t i => -aP' t i * C.dt)
    (fun t i => (hasDeriv_lin (aP t i) (aP' t i)).fun_neg.mul_const C.dt)
    (fun e => scaleAmpV (C.withM (M e)) fun k t i => aV k t i + e * aV' k t i) _
    (fun k t i => hasDeriv_scaled (nt := nt) (aV k) (aV' k) (fun e => (M e).b k) (δ.b k) (hM.b k) (C.srcV k) C.dt t i)
    w δw hgl hgm hgb hcf hcf' (by
      simp only [withM_zero hM0]
      simp only [zero_mul, add_zero]
      exact hf) hbk
  refine hd.congr_deriv ?_
  have hMb : ∀ k, (M 0).b k = C.B k := fun k => by rw [hM0]; rfl
  simp only [hMb]
  have t1 : ∀ {n : ℕ} (x y : ℕ → Fin n → ℝ) (G : Fin n → ℝ) (a : ℕ → Fin n → ℝ) (m : Fin n → ℝ),
      traceInner nt (fun t i => x t i * (m i * C.dt) + G i * (a t i * C.dt)) y =
        traceInner nt x (fun t i => y t i * m i * C.dt) + traceInner nt (fun _ i => G i) fun t i => y t i * (a t i * C.dt) := by
    intro n x y G a m
    simp only [traceInner, ← Finset.sum_add_distrib]
    exact Finset.sum_congr rfl fun t _ => Finset.sum_congr rfl fun i _ => by ring
  have t2 : traceInner nt (fun t i => -aP' t i * C.dt) b.gfP = traceInner nt aP' fun t i => -(b.gfP t i * C.dt) := by
    simp only [traceInner]
    exact Finset.sum_congr rfl fun t _ => Finset.sum_congr rfl fun i _ => by ring
  have hBs : ∀ k, ∑ c ∈ C.modelCells, δ.b k c * totB C nt aV b k c = ∑ c ∈ C.modelCells, δ.b k c * b.gr.b k c +
      traceInner nt (fun _ i => gatherAt (δ.b k) (C.srcV k i)) fun t i => b.gfV k t i * (aV k t i * C.dt) := fun k => by
    simp only [totB, mul_add, Finset.sum_add_distrib]
    rw [sum_locs C.modelCells (srcV_modelCells h k) nt (δ.b k) fun t i => b.gfV k t i * (aV k t i * C.dt)]
  simp only [Grads.inner]
  rw [Finset.sum_congr rfl fun k _ => hBs k, t2]
  simp only [t1, Finset.sum_add_distrib]
  ring

end

/-! ### Lemmas about `prepare_parameters` -/

open Classical in
theorem prepareMuS_mask (n : Fin d → ℤ) (rf : ℝ) (mu : Fld d ℝ) (p : Sh d) (c : Cell d) :
    prepareMuS n rf mu p c = if MuMask n rf mu p c then 4 / invSum mu p c else 0 := by
  unfold prepareMuS
  dsimp only
  by_cases h1 : c p.1.1 + 1 < n p.1.1 ∧ c p.1.2 + 1 < n p.1.2
  · rw [if_pos h1]
    by_cases h2 : rf < |mu ((c.shift p.1.1 1).shift p.1.2 1)| ∧ rf < |mu c| ∧ rf < |mu (c.shift p.1.1 1)| ∧
        rf < |mu (c.shift p.1.2 1)|
    · rw [if_pos h2, if_pos (show MuMask n rf mu p c from ⟨h1, h2⟩)]
      unfold muSafe invSum
      rw [if_pos h2.1, if_pos h2.2.1, if_pos h2.2.2.1, if_pos h2.2.2.2]
    · rw [if_neg h2, if_neg fun h : MuMask n rf mu p c => h2 h.2]
  · rw [if_neg h1, if_neg fun h : MuMask n rf mu p c => h1 h.1]

open Classical in
/-- The direction of the harmonic means. -/
noncomputable def dirS (n : Fin d → ℤ) (rf : ℝ) (mu δ : Fld d ℝ) (p : Sh d) : Fld d ℝ := fun c =>
  if MuMask n rf mu p c then (δ ((c.shift p.1.1 1).shift p.1.2 1) / mu ((c.shift p.1.1 1).shift p.1.2 1) ^ 2 +
    δ c / mu c ^ 2 + δ (c.shift p.1.1 1) / mu (c.shift p.1.1 1) ^ 2 +
    δ (c.shift p.1.2 1) / mu (c.shift p.1.2 1) ^ 2) * (4 / invSum mu p c ^ 2) else 0

theorem hasDeriv_prepareMuS {n : Fin d → ℤ} {rf : ℝ} (hrf : 0 ≤ rf) (mu δ : Fld d ℝ) (hne : ∀ c, |mu c| ≠ rf)
    (p : Sh d) (c : Cell d) (hs : MuMask n rf mu p c → invSum mu p c ≠ 0) :
    HasDerivAt (fun e : ℝ => prepareMuS n rf (fun c => mu c + e * δ c) p c) (dirS n rf mu δ p c) 0 := by
  classical
  have hc : ∀ q, ContinuousAt (fun e : ℝ => |mu q + e * δ q|) 0 := fun q => (hasDeriv_lin (mu q) (δ q)).continuousAt.abs
  have h0 : ∀ q, |mu q + 0 * δ q| = |mu q| := fun q => by rw [zero_mul, add_zero]
  have hlt : ∀ q, rf < |mu q| → ∀ᶠ e in nhds (0 : ℝ), rf < |mu q + e * δ q| := fun q hq =>
    (hc q).eventually_const_lt (hq.trans_eq (h0 q).symm)
  have hgt : ∀ q, ¬rf < |mu q| → ∀ᶠ e in nhds (0 : ℝ), ¬rf < |mu q + e * δ q| := fun q hq => by
    have := (hc q).eventually_lt_const ((h0 q).trans_lt (lt_of_le_of_ne (not_lt.1 hq) (hne q)))
    filter_upwards [this] with e he using not_lt.2 he.le
  simp only [prepareMuS_mask]
  by_cases hm : MuMask n rf mu p c
  · have hpos : ∀ q, rf < |mu q| → mu q + 0 * δ q ≠ 0 := fun q hq h1 => by
      rw [zero_mul, add_zero] at h1
      rw [h1, abs_zero] at hq
      linarith
    have hi : ∀ q, rf < |mu q| → HasDerivAt (fun e : ℝ => 1 / (mu q + e * δ q)) (-δ q / mu q ^ 2) 0 := fun q hq => by
      have := (hasDeriv_lin (mu q) (δ q)).fun_inv (hpos q hq)
      simp only [zero_mul, add_zero] at this
      simpa only [one_div] using this
    have hsum := (((hi _ hm.2.1).fun_add (hi _ hm.2.2.1)).fun_add (hi _ hm.2.2.2.1)).fun_add (hi _ hm.2.2.2.2)
    have hs0 : invSum (fun q => mu q + 0 * δ q) p c = invSum mu p c := by simp only [zero_mul, add_zero]
    have hd := (hsum.fun_inv (by
      have := hs hm
      rw [← hs0] at this
      exact this)).const_mul 4
    have hev : ∀ᶠ e in nhds (0 : ℝ), MuMask n rf (fun c => mu c + e * δ c) p c := by
      filter_upwards [hlt _ hm.2.1, hlt _ hm.2.2.1, hlt _ hm.2.2.2.1, hlt _ hm.2.2.2.2] with e h1 h2 h3 h4
      exact ⟨hm.1, h1, h2, h3, h4⟩
    refine (hd.congr_deriv ?_).congr_of_eventuallyEq ?_
    · rw [dirS, if_pos hm]
      change 4 * (-_ / invSum (fun q => mu q + 0 * δ q) p c ^ 2) = _
      rw [hs0]
      ring
    · filter_upwards [hev] with e he
      rw [if_pos he, div_eq_mul_inv]
      rfl
  · rw [dirS, if_neg hm]
    refine (hasDerivAt_const (0 : ℝ) (0 : ℝ)).congr_of_eventuallyEq ?_
    have hev : ∀ᶠ e in nhds (0 : ℝ), ¬MuMask n rf (fun c => mu c + e * δ c) p c := by
      unfold MuMask at hm
      by_cases h1 : rf < |mu ((c.shift p.1.1 1).shift p.1.2 1)|
      · by_cases h2 : rf < |mu c|
        · by_cases h3 : rf < |mu (c.shift p.1.1 1)|
          · by_cases h4 : rf < |mu (c.shift p.1.2 1)|
            · exact Filter.Eventually.of_forall fun e h => hm ⟨h.1, h1, h2, h3, h4⟩
            · filter_upwards [hgt _ h4] with e he h using he h.2.2.2.2
          · filter_upwards [hgt _ h3] with e he h using he h.2.2.2.1
        · filter_upwards [hgt _ h2] with e he h using he h.2.2.1
      · filter_upwards [hgt _ h1] with e he h using he h.2.1
    filter_upwards [hev] with e he
    rw [if_neg he]

theorem shift_mem {n : Fin d → ℤ} {c : Cell d} {k : Fin d} (hc : c ∈ box (fun _ => 0) n) (h : c k + 1 < n k) :
    c.shift k 1 ∈ box (fun _ => 0) n := by
  rw [mem_box] at hc ⊢
  intro j
  have := hc j
  by_cases hj : j = k
  · subst hj
    simp only [Cell.shift, Pi.add_apply, Pi.single_eq_same]
    omega
  · simp only [Cell.shift, Pi.add_apply, Pi.single_eq_of_ne hj, add_zero]
    omega

/-- Moving a shift to the other factor, which is zero at the end. -/
theorem sum_shift {n : Fin d → ℤ} (δ w : Fld d ℝ) (k : Fin d) (hw : ∀ c, w c ≠ 0 → c ∈ box (fun _ => 0) n ∧ c k + 1 < n k) :
    ∑ c ∈ box (fun _ => 0) n, δ (c.shift k 1) * w c = ∑ c ∈ box (fun _ => 0) n, δ c * w (c.shift k (-1)) := by
  have e := dot_shift (S := box (fun _ => 0) n) (u := fun c => if c ∈ box (fun _ => 0) n then δ c else 0) (w := w)
    (fun c hc => if_neg hc) (fun c hc => by_contra fun h => hc (hw c h).1) k 1
  refine Eq.trans ?_ (e.trans ?_)
  · refine Finset.sum_congr rfl fun c _ => ?_
    by_cases h : w c = 0
    · simp [h]
    · rw [if_pos (shift_mem (hw c h).1 (hw c h).2)]
  · exact Finset.sum_congr rfl fun c hc => by rw [if_pos hc]

theorem sum_corners {n : Fin d → ℤ} (δ w : Fld d ℝ) {i j : Fin d} (hij : i ≠ j)
    (hw : ∀ c, w c ≠ 0 → c ∈ box (fun _ => 0) n ∧ c i + 1 < n i ∧ c j + 1 < n j) :
    ∑ c ∈ box (fun _ => 0) n, (δ ((c.shift i 1).shift j 1) + δ c + δ (c.shift i 1) + δ (c.shift j 1)) * w c =
      ∑ c ∈ box (fun _ => 0) n, δ c * (w c + w (c.shift i (-1)) + w (c.shift j (-1)) +
        w ((c.shift j (-1)).shift i (-1))) := by
  have e1 := sum_shift δ w i fun c h => ⟨(hw c h).1, (hw c h).2.1⟩
  have e2 := sum_shift δ w j fun c h => ⟨(hw c h).1, (hw c h).2.2⟩
  have e3 := sum_shift (fun c => δ (c.shift j 1)) w i fun c h => ⟨(hw c h).1, (hw c h).2.1⟩
  have e4 := sum_shift δ (fun c => w (c.shift i (-1))) j fun c h => by
    have h1 := hw _ h
    have h2 := shift_mem h1.1 h1.2.1
    have h3 : (c.shift i (-1)).shift i 1 = c := by
      funext k
      by_cases hk : k = i <;> simp [Cell.shift, hk]
    rw [h3] at h2
    have h4 := h1.2.2
    rw [show c.shift i (-1) j = c j by simp [Cell.shift, hij.symm]] at h4
    exact ⟨h2, h4⟩
  simp only [add_mul, mul_add, Finset.sum_add_distrib]
  rw [e1, e2, e3, e4]
  ring

/-- The direction of the density. -/
noncomputable def dirRho (rf : ℝ) (bu δ : Fld d ℝ) : Fld d ℝ := fun c => if rf < |bu c| then -δ c / bu c ^ 2 else 0

theorem hasDeriv_prepareRho {rf : ℝ} (hrf : 0 ≤ rf) (bu δ : Fld d ℝ) (c : Cell d) (hne : |bu c| ≠ rf) :
    HasDerivAt (fun e : ℝ => prepareRho rf (fun c => bu c + e * δ c) c) (dirRho rf bu δ c) 0 := by
  have h1 := hasDeriv_inverse hrf (hasDeriv_lin (bu c) (δ c)) (by simpa only [zero_mul, add_zero] using hne)
  simp only [zero_mul, add_zero] at h1
  exact h1

theorem hasDeriv_prepareB {n : Fin d → ℤ} {rf : ℝ} (hrf : 0 ≤ rf) (bu δ : Fld d ℝ) (k : Fin d) (c : Cell d)
    (hb : ∀ c, |bu c| ≠ rf) (hc : c k + 1 < n k → |meanRho n (prepareRho rf bu) k c| ≠ rf) :
    HasDerivAt (fun e : ℝ => prepareB n rf (fun c => bu c + e * δ c) k c)
      (dirB n rf (prepareRho rf bu) (dirRho rf bu δ) k c) 0 := by
  have h0 : prepareRho rf (fun c => bu c + 0 * δ c) = prepareRho rf bu := by simp only [zero_mul, add_zero]
  have hm : HasDerivAt (fun e : ℝ => meanRho n (prepareRho rf fun c => bu c + e * δ c) k c)
      (meanRho n (dirRho rf bu δ) k c) 0 := by
    unfold meanRho
    split_ifs
    · exact ((hasDeriv_prepareRho hrf bu δ c (hb c)).add (hasDeriv_prepareRho hrf bu δ _ (hb _))).div_const 2
    · exact hasDerivAt_const _ _
  by_cases h : c k + 1 < n k
  · have h1 := hasDeriv_inverse hrf hm (by rw [h0]; exact hc h)
    rw [h0] at h1
    exact h1
  · have e0 : ∀ r : Fld d ℝ, meanRho n r k c = 0 := fun r => if_neg h
    have : ¬rf < |(0 : ℝ)| := by rw [abs_zero]; exact not_lt.2 hrf
    simp only [prepareB, Acoustic.prepareB, dirB, e0, if_neg this]
    exact hasDerivAt_const _ _

/-- The models of the propagator. -/
noncomputable def modelsOf (n : Fin d → ℤ) (rf : ℝ) (lam mu bu : Fld d ℝ) : Grads d ℝ :=
  ⟨lam, mu, prepareMuS n rf mu, prepareB n rf bu⟩

/-- Their directions. -/
noncomputable def dirs (n : Fin d → ℤ) (rf : ℝ) (mu bu δl δm δb : Fld d ℝ) : Grads d ℝ :=
  ⟨δl, δm, dirS n rf mu δm, dirB n rf (prepareRho rf bu) (dirRho rf bu δb)⟩

/-- The transposes of `prepare_parameters`. -/
theorem prepare_adj' (n : Fin d → ℤ) (rf : ℝ) (mu bu δl δm δb : Fld d ℝ) (G : Grads d ℝ) :
    (dirs n rf mu bu δl δm δb).inner (box (fun _ => 0) n) G =
      ∑ c ∈ box (fun _ => 0) n, δl c * G.l c + ∑ c ∈ box (fun _ => 0) n, δm c * prepareMuT n rf mu G.m G.s c +
        ∑ c ∈ box (fun _ => 0) n, δb c * prepareBT n rf bu G.b c := by
  classical
  have hB := prepare_adj n rf (fun _ => 0) (prepareRho rf bu) (fun _ => 0) (dirRho rf bu δb) (fun _ => 0) G.b
  simp only [mul_zero, zero_mul, Finset.sum_const_zero, zero_add] at hB
  have hB' : ∑ k, ∑ c ∈ box (fun _ => 0) n, dirB n rf (prepareRho rf bu) (dirRho rf bu δb) k c * G.b k c =
      ∑ c ∈ box (fun _ => 0) n, δb c * prepareBT n rf bu G.b c := by
    rw [hB]
    refine Finset.sum_congr rfl fun c _ => ?_
    simp only [dirRho, prepareBT, Acoustic.prepareRhoT, rhoT]
    split_ifs
    · ring
    · ring
  have hS : ∀ p : Sh d, ∑ c ∈ box (fun _ => 0) n, dirS n rf mu δm p c * G.s p c = ∑ c ∈ box (fun _ => 0) n, δm c *
      ((muST n rf mu G.s p c + muST n rf mu G.s p (c.shift p.1.1 (-1)) +
        muST n rf mu G.s p (c.shift p.1.2 (-1)) + muST n rf mu G.s p ((c.shift p.1.2 (-1)).shift p.1.1 (-1))) / mu c ^ 2) := by
    intro p
    have e := sum_corners (n := n) (fun c => δm c / mu c ^ 2) (muST n rf mu G.s p) (ne_of_lt p.2) (fun c h => by
      unfold muST at h
      by_cases hm : c ∈ box (fun _ => 0) n ∧ MuMask n rf mu p c
      · exact ⟨hm.1, hm.2.1⟩
      · rw [if_neg hm] at h
        exact absurd rfl h)
    refine Eq.trans ?_ (e.trans ?_)
    · refine Finset.sum_congr rfl fun c hc => ?_
      unfold dirS muST
      by_cases hm : MuMask n rf mu p c
      · rw [if_pos hm, if_pos (show c ∈ box (fun _ => 0) n ∧ MuMask n rf mu p c from ⟨hc, hm⟩)]
        ring
      · rw [if_neg hm, if_neg (show ¬(c ∈ box (fun _ => 0) n ∧ MuMask n rf mu p c) from fun h => hm h.2)]
        ring
    · exact Finset.sum_congr rfl fun c _ => by ring
  simp only [Grads.inner, dirs]
  rw [hB', Finset.sum_congr rfl fun p _ => hS p, Finset.sum_comm]
  simp only [prepareMuT, mul_add, Finset.sum_add_distrib, Finset.mul_sum]
  ring

/-! ### Lemmas about calls -/

theorem Cfg.createOrPad_getD (C : Cfg d np mp nv mv ℝ) (w : Option (Fld d ℝ)) :
    C.createOrPad (some (w.getD fun _ => 0)) = C.createOrPad w := by
  cases w with
  | some w => rfl
  | none =>
      funext c
      simp only [Cfg.createOrPad, Option.getD_none, ite_self]

/-- The wavefields with zero for those that are not given. -/
def UWf.zeroed (w : UWf d) (s : ℕ) : Wavefields d ℝ :=
  ⟨fun i => ((w.init s).v i).getD fun _ => 0, fun i => ((w.init s).s i).getD fun _ => 0,
    fun p => ((w.init s).sh p).getD fun _ => 0, fun i j => ((w.init s).mv i j).getD fun _ => 0,
    fun i j => ((w.init s).ms i j).getD fun _ => 0⟩

theorem prepare_zeroed (C : Cfg d np mp nv mv ℝ) (w : UWf d) (s : ℕ) :
    C.prepare (w.zeroed s).toInit = C.prepare (w.init s) := by
  simp only [Cfg.prepare, UWf.zeroed, Wavefields.toInit, Cfg.createOrPad_getD]

theorem UWf.plus_zeroed (w : UWf d) (e : ℝ) (δ : ℕ → Wavefields d ℝ) (s : ℕ) :
    (w.plus e δ).zeroed s = (w.zeroed s).plus e (w.givenOf (δ s)) := by
  simp only [UWf.zeroed, UWf.init, UWf.plus, Wavefields.plus, UWf.givenOf, Wavefields.mk.injEq]
  exact ⟨funext fun _ => wf_plus _ _ _ _, funext fun _ => wf_plus _ _ _ _, funext fun _ => wf_plus _ _ _ _,
    funext fun _ => funext fun _ => wf_plus _ _ _ _, funext fun _ => funext fun _ => wf_plus _ _ _ _⟩

theorem UWf.plus_list (w : UWf d) (e : ℝ) (δ : ℕ → Wavefields d ℝ) :
    (w.plus e δ).list.map (Option.map WfT.size) = w.list.map (Option.map WfT.size) := by
  simp only [UWf.list, UWf.plus, List.map_append, List.map_flatMap, List.map_ofFn, Function.comp_def, wf_plus_size,
    apply_dite (Option.map WfT.size)]

/-- The models of the call with arguments `x + e δ`. -/
def UArgs.modelsPlus (A : UArgs d) (e : ℝ) (D : UDir d) : List (ModelT d ℝ × PadMode) :=
  [((A.plus e D).lam, .replicate), ((A.plus e D).mu, .replicate), ((A.plus e D).buoyancy, .replicate)]

/-- Its plan. -/
noncomputable def UArgs.planPlus (A : UArgs d) (P : Plan d) (e : ℝ) (D : UDir d) : Plan d :=
  P.withModels true (A.modelsPlus e D)

theorem plus_good {A : UArgs d} {P : Plan d} (h : A.setup.Good P) (hnb : 0 < P.nb)
    (hmv : A.opts.maxVel ≠ none) (e : ℝ) (D : UDir d) : (A.plus e D).setup.Good (A.planPlus P e D) := by
  refine ((h.withModels (ms := A.modelsPlus e D) (mv := (A.plus e D).maxModelVel) hnb rfl ?_).revalue
    (amps := List.ofFn (A.plus e D).ampV ++ [(A.plus e D).ampP]) (wfs := (A.plus e D).wf.list) ?_ ?_)
  · have := h.maxVel
    unfold setMaxVelR at this ⊢
    cases hm : A.opts.maxVel with
    | none => exact absurd hm hmv
    | some x =>
        simp only [UArgs.setup, Opts.setup, hm] at this ⊢
        exact this
  · simp only [UArgs.setup, Opts.setup, UArgs.plus, List.map_append, List.map_cons, List.map_nil, List.map_ofFn,
      Function.comp_def, amp_plus_size]
  · simp only [UArgs.setup, Opts.setup, UArgs.plus, UWf.plus_list]

theorem plus_models {A : UArgs d} (e : ℝ) {D : UDir d} (hl : D.lam = fun _ _ => 0) (hm : D.mu = fun _ _ => 0)
    (hb : D.buoyancy = fun _ _ => 0) :
    (A.plus e D).lam = A.lam ∧ (A.plus e D).mu = A.mu ∧ (A.plus e D).buoyancy = A.buoyancy := by
  refine ⟨?_, ?_, ?_⟩
  · simp only [UArgs.plus, plusModel, hl, mul_zero, add_zero]
    rfl
  · simp only [UArgs.plus, plusModel, hm, mul_zero, add_zero]
    rfl
  · simp only [UArgs.plus, plusModel, hb, mul_zero, add_zero]
    rfl

theorem plus_good_zero {A : UArgs d} {P : Plan d} (h : A.setup.Good P) (e : ℝ)
    (D : UDir d) (hl : D.lam = fun _ _ => 0) (hm : D.mu = fun _ _ => 0) (hb : D.buoyancy = fun _ _ => 0) :
    (A.plus e D).setup.Good P := by
  obtain ⟨hl', hm', hb'⟩ := plus_models (A := A) e hl hm hb
  have := h.revalue (amps := List.ofFn (A.plus e D).ampV ++ [(A.plus e D).ampP]) (wfs := (A.plus e D).wf.list)
    (by simp only [UArgs.setup, Opts.setup, UArgs.plus, List.map_append, List.map_cons, List.map_nil, List.map_ofFn,
      Function.comp_def, amp_plus_size])
    (by simp only [UArgs.setup, Opts.setup, UArgs.plus, UWf.plus_list])
  unfold UArgs.setup UArgs.maxModelVel
  rw [hl', hm', hb']
  exact this

/-- What is needed of a call for its propagator to run. -/
structure Fwd (A : UArgs d) (P : Plan d) (s : ℕ) (cf : ℤ) : Prop where
  good : A.setup.Good P
  pre : ¬A.Pre
  lt : s < P.nb
  pml : PmlOk P
  loc : ∀ l, some l ∈ A.setup.srcs ++ A.setup.rcvs → WholeIgnored d l s
  last : ∀ k, 0 < P.w1 k ∨ (P.ext k).2 = A.lam.shape k ∨ P.BeforeLast k s (A.srcV k) ∧ P.BeforeLast k s (A.rcvV k)
  freq : checkCallbackFrequency A.opts.callbackFreq = .ok cf
  interval : 0 < P.interval
  nt : A.opts.callback = true ∨ P.ratio * P.interval ≤ P.nt ∨ P.nt ≤ 0

/-- What is needed of a call for its propagator to run forward and backward. -/
structure Runs (A : UArgs d) (P : Plan d) (s : ℕ) (cf : ℤ) : Prop where
  good : A.setup.Good P
  pre : ¬A.Pre
  lt : s < P.nb
  pml : PmlOk P
  loc : ∀ l, some l ∈ A.setup.srcs ++ A.setup.rcvs → WholeIgnored d l s
  last : ∀ k, 0 < P.w1 k ∨ (P.ext k).2 = A.lam.shape k ∨ P.BeforeLast k s (A.srcV k) ∧ P.BeforeLast k s (A.rcvV k)
  big : ∀ k, (P.acc.pad : ℤ) + 1 ≤ (P.ext k).2 - (P.ext k).1 + P.w1 k
  freq : checkCallbackFrequency A.opts.callbackFreq = .ok cf
  interval : 0 < P.interval
  nt : P.ratio * P.interval ≤ P.nt ∨ P.nt ≤ 0

theorem get_v {α : Type*} (f : Fin d → α) (o : α) (k : Fin d) : (List.ofFn f ++ [o])[(k : ℕ)]? = some (f k) := by
  rw [List.getElem?_append_left (by simp)]
  simp

theorem get_p {α : Type*} (f : Fin d → α) (o : α) : (List.ofFn f ++ [o])[d]? = some o := by
  rw [List.getElem?_append_right (by simp)]
  simp

section
variable {A : UArgs d} {P : Plan d} {s : ℕ} {cf : ℤ} (h : Fwd A P s cf)
include h

theorem Fwd.mem (o : Option LocT) (ho : o ∈ A.setup.srcs ++ A.setup.rcvs) (l : LocT) (hl : o = some l) :
    WholeIgnored d l s := h.loc l (hl ▸ ho)

theorem Fwd.rcvP : Placed P A.rcvP s ((shotIn A.setup P A.opts.timeTaper s).rcv d) :=
  rcv_placed h.good h.lt A.opts.timeTaper (j := d) (get_p _ _) (h.mem _ (List.mem_append_right _ (List.mem_of_getElem? (get_p _ _))))

theorem Fwd.rcvV (k : Fin d) : Placed P (A.rcvV k) s ((shotIn A.setup P A.opts.timeTaper s).rcv k) :=
  rcv_placed h.good h.lt A.opts.timeTaper (j := k) (get_v _ _ k)
    (h.mem _ (List.mem_append_right _ (List.mem_of_getElem? (get_v _ _ k))))

theorem Fwd.wf : (cfgOf A.rfmax (shotIn A.setup P A.opts.timeTaper s)).WF := by
  have hnb : 0 < P.nb := by have := h.lt; omega
  have hext := h.good.ext_lt hnb ⟨A.lam, List.mem_cons_self⟩
  have hC : OnGrid P (cfgOf A.rfmax (shotIn A.setup P A.opts.timeTaper s)) :=
    ⟨rfl, rfl, rfl, rfl, rfl, rfl, rfl, rfl, rfl, rfl⟩
  have hsP : Placed P A.srcP s _ := src_placed h.good h.lt A.opts.timeTaper (j := d) (get_p _ _)
    (h.mem _ (List.mem_append_left _ (List.mem_of_getElem? (get_p _ _))))
  have hsV : ∀ k, Placed P (A.srcV k) s _ := fun k => src_placed h.good h.lt A.opts.timeTaper (j := k) (get_v _ _ k)
    (h.mem _ (List.mem_append_left _ (List.mem_of_getElem? (get_v _ _ k))))
  have last : ∀ k o, (o = A.srcV k ∨ o = A.rcvV k) → ∀ l : List (Option (Cell d)), Placed P o s l →
      ∀ (i : Fin l.length) c, l.get i = some (P.at c) → P.Inside c ∧ c k < P.grid.hi k + P.grid.w1 k := by
    intro k o ho l hl i c e
    have hin := hl.inside' i c e
    refine ⟨hin, ?_⟩
    have hk := hin k
    have hw := h.good.widths k
    have main : 0 < P.w1 k ∨ P.BeforeLast k s o := by
      rcases h.last k with h1 | h1 | h1
      · exact .inl h1
      · refine .inr ?_
        cases o with
        | none => intro i hi; cases hi
        | some l' =>
            have hl' : A.srcV k = some l' ∨ A.rcvV k = some l' := ho.imp Eq.symm Eq.symm
            have hm : some l' ∈ A.setup.srcs ++ A.setup.rcvs := by
              rcases hl' with h2 | h2
              · exact List.mem_append_left _ (h2 ▸ List.mem_of_getElem? (get_v A.srcV A.srcP k))
              · exact List.mem_append_right _ (h2 ▸ List.mem_of_getElem? (get_v A.rcvV A.rcvP k))
            refine before_last h.good h.lt hm (h.loc _ hm) fun hb => h.pre (.inl ⟨k, l', hl', ?_⟩)
            rwa [h1] at hb
      · rcases ho with rfl | rfl
        · exact .inr h1.1
        · exact .inr h1.2
    simp only [Plan.grid]
    rcases main with h1 | h1
    · omega
    · have hc : locCell (d := d) o s i = some c := by
        have := hl.get i
        rw [e] at this
        cases hc : locCell (d := d) o s i with
        | none => rw [hc] at this; cases this
        | some c' =>
            rw [hc] at this
            rw [Plan.at_inj.1 (Option.some.inj this)]
      have := h1 i (i.isLt.trans_eq hl.length) c hc
      omega
  exact hC.wf h.good hext h.pml (fun i c e => hsP.inside' i c e) (fun i c e => h.rcvP.inside' i c e)
    (fun k i c e => last k _ (.inl rfl) _ (hsV k) i c e) (fun k i c e => last k _ (.inr rfl) _ (h.rcvV k) i c e)

/-- The propagator runs every time step. -/
theorem Fwd.ratio : 0 < (P.ratio * P.interval).toNat := by
  have := Scalar.SetupGood.ratio_pos h.good
  have : 0 < P.ratio * P.interval := mul_pos (by omega) h.interval
  omega

end

section
variable {A : UArgs d} {P : Plan d} {s : ℕ} {cf : ℤ} (h : Runs A P s cf)
include h

theorem Runs.fwd : Fwd A P s cf :=
  ⟨h.good, h.pre, h.lt, h.pml, h.loc, h.last, h.freq, h.interval, .inr h.nt⟩

theorem Runs.mem (o : Option LocT) (ho : o ∈ A.setup.srcs ++ A.setup.rcvs) (l : LocT) (hl : o = some l) :
    WholeIgnored d l s := h.fwd.mem o ho l hl

theorem Runs.rcvP : Placed P A.rcvP s ((shotIn A.setup P A.opts.timeTaper s).rcv d) := h.fwd.rcvP

theorem Runs.rcvV (k : Fin d) : Placed P (A.rcvV k) s ((shotIn A.setup P A.opts.timeTaper s).rcv k) := h.fwd.rcvV k

theorem Runs.wf : (cfgOf A.rfmax (shotIn A.setup P A.opts.timeTaper s)).WF := h.fwd.wf

theorem Runs.cfgBig : (cfgOf A.rfmax (shotIn A.setup P A.opts.timeTaper s)).Big := fun k => by
  have := h.big k
  have := nStag_eq P k
  show P.w0 k + 3 * (P.acc.pad : ℤ) ≤ P.n true k
  omega

theorem Runs.ratio : 0 < (P.ratio * P.interval).toNat := h.fwd.ratio

theorem Runs.plus (hmv : A.opts.maxVel ≠ none) (e : ℝ) (D : UDir d) : Runs (A.plus e D) (A.planPlus P e D) s cf :=
  ⟨plus_good h.good (by have := h.lt; omega) hmv e D, h.pre, h.lt, h.pml, h.loc, h.last, h.big, h.freq, h.interval, h.nt⟩

theorem Runs.plus_zero (e : ℝ) (D : UDir d) (hl : D.lam = fun _ _ => 0) (hm : D.mu = fun _ _ => 0)
    (hb : D.buoyancy = fun _ _ => 0) : Runs (A.plus e D) P s cf :=
  ⟨plus_good_zero h.good e D hl hm hb, h.pre, h.lt, h.pml, h.loc, h.last, h.big, h.freq, h.interval, h.nt⟩

/-- The pairing of the outputs of a call in terms of the propagator. -/
theorem elastic_pair (grP : ℕ → ℕ → ℝ) (grV : Fin d → ℕ → ℕ → ℝ) (g : Wavefields d ℝ) :
    ∃ r, A.elastic s = .ok (some r) ∧
      let C := cfgOf A.rfmax (shotIn A.setup P A.opts.timeTaper s)
      r.pair A (outCells P) grP grV g = C.obj P.nt.toNat (fun t i => downT P A.opts.timeTaper (fun t => -grP i t / d) t)
        (fun k t i => downT P A.opts.timeTaper (grV k i) t) g
        (scaleAmpP C fun t i => upAmps P A.opts.timeTaper A.ampP s t i)
        (scaleAmpV C fun k t i => upAmps P A.opts.timeTaper (A.ampV k) s t i) (A.wf.zeroed s) := by
  obtain ⟨r, hrun, hout, htp, htv⟩ := runWith_spec A (A.wf.init s) cf
    (shotIn A.setup P A.opts.timeTaper s) (cfgOf A.rfmax (shotIn A.setup P A.opts.timeTaper s)) h.wf h.ratio
    (cb_pos h.freq h.ratio (.inr h.nt)) (finite_of_pmlOk' h.good h.pml true)
  have hcall : A.elastic s = .ok (some r) := call_ok.2 ⟨h.pre, P, cf, h.good, h.freq, hrun⟩
  refine ⟨r, hcall, ?_⟩
  have huc : (cfgOf A.rfmax (shotIn A.setup P A.opts.timeTaper s)).userCells = outCells P := by
    unfold Cfg.userCells outCells
    congr 1
    funext k
    have := nStag_eq P k
    rw [Acc.order_div_two]
    show P.n true k - 2 * (P.acc.pad : ℤ) + 1 = _
    omega
  have haV : (fun (k : Fin d) (t : ℕ) (i : Fin ((shotIn A.setup P A.opts.timeTaper s).src k).length) =>
      (shotIn A.setup P A.opts.timeTaper s).amp k t i) =
      fun k t (i : Fin _) => upAmps P A.opts.timeTaper (A.ampV k) s t i := by
    funext k t i
    have e : A.setup.amps[(k : ℕ)]? = some (A.ampV k) := get_v A.ampV A.ampP k
    rw [amp_eq _ _ _ _ e]
  have haP : (fun (t : ℕ) (i : Fin ((shotIn A.setup P A.opts.timeTaper s).src d).length) =>
      (shotIn A.setup P A.opts.timeTaper s).amp d t i) =
      fun t (i : Fin _) => upAmps P A.opts.timeTaper A.ampP s t i := by
    funext t i
    have e : A.setup.amps[d]? = some A.ampP := get_p A.ampV A.ampP
    rw [amp_eq _ _ _ _ e]
  rw [haV, haP] at hout htp htv
  have hneg : ∀ (m : ℕ) (x : ℕ → Sig ℝ), tracePair m grP (fun i => ⟨(x i).len, fun t => -(x i).val t / d⟩) =
      tracePair m (fun i t => -grP i t / d) x := by
    intro m x
    unfold tracePair
    exact Finset.sum_congr rfl fun i _ => Finset.sum_congr rfl fun t _ => by ring
  dsimp only
  unfold UShot.pair Cfg.obj
  dsimp only
  rw [hout, htp, htv, huc, hneg, prepare_zeroed, ← tracePair_eq h.good A.opts.timeTaper s (fun i t => -grP i t / d),
    ← h.rcvP.length, Finset.sum_congr rfl fun k _ => (tracePair_eq h.good A.opts.timeTaper s (grV k) _).symm]
  simp only [← (h.rcvV _).length]
  rfl

end

end Dw.Elastic
