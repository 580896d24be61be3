import Verif.Born.Adjoint
import Verif.Props.ScalarForward
import Verif.Props.ScalarBackward
import Verif.Props.Survey

/-!
# Properties of the Born propagator

`B.forward gv gs cb nt f fsc w wsc` models the forward pass: `f`, `fsc` are the scaled source
amplitudes of the background and of the scattered field, `w`, `wsc` the initial wavefields.  Its
result has the final wavefields `out`, `outsc`, the receiver data `rcd`, `rcdsc` and the stored
snapshots `w`, `wsc`.  `B.backward` and `B.backwardSc` model the two backward passes.
-/

namespace Dw.Born

open Dw.Scalar

variable {d ns nr nq : ℕ}

/-- A configuration for the examples. -/
def exB (R : Type*) [Field R] : BCfg 2 2 1 1 R :=
  ⟨exCfgOf R, fun c => (c 1 : R) / 20, fun _ => some ![5, 6]⟩

theorem exB_wf (R : Type*) [Field R] : (exB R).WF := by
  refine ⟨exCfgOf_wf R, fun i c h => ?_⟩
  have : c = ![5, 6] := by simpa [exB] using h.symm
  subst this
  intro k
  fin_cases k <;> simp [exB, exCfgOf, Acc.pad, exN]

section
variable {R : Type*} [Field R] {B : BCfg d ns nr nq R}

/-! ## C29 -/

/-- **C29** (first part) The background wavefields and receiver data of `scalar_born` are those of
`scalar`. -/
theorem C29_background_is_scalar (h : B.base.WF) (hr : 0 < B.base.ratio) (gv gs grad : Bool)
    (cb cb' : Option ℕ) (nt : ℕ) (hcf : 0 < nt → 0 < cb.getD (nt / B.base.ratio))
    (hcf' : 0 < nt → 0 < cb'.getD (nt / B.base.ratio)) (f fsc : ℕ → Fin ns → R) (w wsc : Init d R) :
    ∃ r b, B.base.forward grad cb nt f w = .ok r ∧ B.forward gv gs cb' nt f fsc w wsc = .ok b ∧
      b.out = r.out ∧ b.rcd = r.rcd := by
  exact ⟨_, _, B.base.forward_eq h grad cb nt f w hr hcf, forward_eq h gv gs cb' nt f fsc w wsc hr hcf',
    rfl, rfl⟩

theorem run_rcv {n' : ℕ} (C : Cfg d ns nr R) (rcv' : Fin n' → Option (Cell d)) (f : ℕ → Fin ns → R)
    (t : ℕ) (s : St d R) (n : ℕ) :
    Cfg.run { C with rcv := rcv' } f t s n = C.run f t s n := by
  induction n with
  | zero => rfl
  | succ n ih => rw [Cfg.run, Cfg.run, ih]; rfl

/-- Linear combination of wavefields is linear combination of the states. -/
theorem scRun_comb (f : ℕ → Fin ns → R) (s : St d R) (α β : R) (σ σ' : Fld d R)
    (q q' : ℕ → Fin ns → R) (l l' : St d R) (n : ℕ) :
    scRun { B with scatter := fun c => α * σ c + β * σ' c } f (fun t i => α * q t i + β * q' t i) s
      (l.comb α β l') n =
    (scRun { B with scatter := σ } f q s l n).comb α β (scRun { B with scatter := σ' } f q' s l' n) := by
  induction n with
  | zero => rfl
  | succ n ih =>
      rw [scRun, ih]
      simp only [scNext, Cfg.tNext, inject_comb, B.base.refStep_comb, scRun]
      ext1
      · funext c; simp only [St.comb]; ring
      · rfl
      · rfl
      · rfl

/-- **C29** (linearity) The scattered wavefields and receiver data are jointly linear in the
scattering potential, the scattered source amplitudes and the initial scattered wavefields. -/
theorem C29_scattered_linear (h : B.base.WF) (hr : 0 < B.base.ratio) (gv gs : Bool)
    (cb : Option ℕ) (nt : ℕ) (hcf : 0 < nt → 0 < cb.getD (nt / B.base.ratio))
    (f fsc fsc' : ℕ → Fin ns → R) (w : Init d R) (wsc wsc' : Wavefields d R) (σ σ' : Fld d R)
    (α β : R) :
    ∃ r r' rc, ({ B with scatter := σ } : BCfg d ns nr nq R).forward gv gs cb nt f fsc w wsc.toInit
        = .ok r ∧
      ({ B with scatter := σ' } : BCfg d ns nr nq R).forward gv gs cb nt f fsc' w wsc'.toInit = .ok r' ∧
      ({ B with scatter := fun c => α * σ c + β * σ' c } : BCfg d ns nr nq R).forward gv gs cb nt f
        (fun t i => α * fsc t i + β * fsc' t i) w (wsc.comb α β wsc').toInit = .ok rc ∧
      rc.outsc = r.outsc.comb α β r'.outsc ∧
      ∀ t i, rc.rcdsc t i = α * r.rcdsc t i + β * r'.rcdsc t i := by
  refine ⟨_, _, _, forward_eq (B := { B with scatter := σ }) h gv gs cb nt f fsc w _ hr hcf,
    forward_eq (B := { B with scatter := σ' }) h gv gs cb nt f fsc' w _ hr hcf,
    forward_eq (B := { B with scatter := fun c => α * σ c + β * σ' c }) h gv gs cb nt f _ w _ hr hcf,
    ?_, ?_⟩
  · simp only [B.base.start_comb, scRun_comb]
    rfl
  · intro t i
    simp only [B.base.start_comb, scRun_comb]
    split_ifs
    · exact sample_comb _ _ _ _ _ _
    · ring

/-- The scaled amplitudes are linear in the scattering potential. -/
theorem C29_amplitudes_linear (a : ℕ → Fin ns → R) (σ σ' : Fld d R) (α β : R) (t : ℕ) (i : Fin ns) :
    scaleAmpSc { B with scatter := fun c => α * σ c + β * σ' c } a t i =
      α * scaleAmpSc { B with scatter := σ } a t i + β * scaleAmpSc { B with scatter := σ' } a t i := by
  simp only [scaleAmpSc, gatherAt]
  ring

end

/-- Wavefields `w + e w'`. -/
def plus (w : Wavefields d ℝ) (e : ℝ) (w' : Wavefields d ℝ) : Wavefields d ℝ :=
  ⟨fun c => w.wfc c + e * w'.wfc c, fun c => w.wfp c + e * w'.wfp c,
    fun k c => w.psi k c + e * w'.psi k c, fun k c => w.zeta k c + e * w'.zeta k c⟩

theorem hasDerivAt_line (a b : ℝ) : HasDerivAt (fun e : ℝ => a + e * b) b 0 := by
  simpa using ((hasDerivAt_id (0 : ℝ)).mul_const b).const_add a

theorem start_plus_hasDeriv (C : Cfg d ns nr ℝ) (w w' : Wavefields d ℝ) :
    St.HasDeriv (fun e => C.start (plus w e w').toInit) (C.start w'.toInit) 0 := by
  have pad : ∀ (u u' : Fld d ℝ) (c : Cell d), HasDerivAt
      (fun e => C.createOrPad (some fun c => u c + e * u' c) c) (C.createOrPad (some u') c) 0 := by
    intro u u' c
    simp only [Cfg.createOrPad]
    split_ifs
    · exact hasDerivAt_line _ _
    · exact hasDerivAt_const _ _
  refine ⟨fun c => pad _ _ c, fun c => pad _ _ c, fun k c => ?_, fun k c => ?_⟩ <;>
  · simp only [Cfg.start, Wavefields.toInit, plus, Cfg.zeroInterior]
    split_ifs
    · exact hasDerivAt_const _ _
    · exact pad _ _ c

variable {B : BCfg d ns nr nq ℝ}

/-- The scaled amplitudes of the scattered field are the derivative of the scaled amplitudes of the
scalar propagator along the scattering potential. -/
theorem scaleAmp_hasDeriv (a : ℕ → Fin ns → ℝ) (t : ℕ) (i : Fin ns) :
    HasDerivAt (fun e => scaleAmp (B.base.pert B.scatter e) a t i) (scaleAmpSc B a t i) 0 := by
  have h1 := hasDerivAt_line (gatherAt B.base.v (B.base.src i)) (gatherAt B.scatter (B.base.src i))
  have h2 := ((h1.pow 2).const_mul (-a t i)).mul_const (B.base.dt ^ 2)
  refine h2.congr_deriv ?_
  have e : (2 - 1 : ℕ) = 1 := rfl
  rw [e, pow_one, zero_mul, add_zero]
  simp only [scaleAmpSc]
  push_cast
  ring

/-- **C29** `scalar_born` is the derivative of `scalar`.  Run `scalar` on the velocity
`v + e scatter` from initial wavefields `w + e wsc` with receivers at the scattered receiver
locations and unscaled source amplitudes `a`; run `scalar_born` with background velocity `v`,
scattering potential `scatter`, initial wavefields `w` and `wsc` and the same amplitudes.  Every
sample of the scattered receiver data and every element of the final scattered wavefields is the
derivative of the corresponding `scalar` output with respect to `e` at 0. -/
theorem C29_born_is_derivative (h : B.WF) (hr : 0 < B.base.ratio) (gv gs grad : Bool)
    (cb cb' : Option ℕ) (nt : ℕ) (hcf : 0 < nt → 0 < cb.getD (nt / B.base.ratio))
    (hcf' : 0 < nt → 0 < cb'.getD (nt / B.base.ratio)) (a : ℕ → Fin ns → ℝ) (w wsc : Wavefields d ℝ) :
    ∃ (r : ℝ → FwdResult d nq ℝ) (b : FResult d nr nq ℝ),
      (∀ e : ℝ, ({ B.base with v := fun c => B.base.v c + e * B.scatter c, rcv := B.rcvsc } :
          Cfg d ns nq ℝ).forward grad cb nt
          (scaleAmp { B.base with v := fun c => B.base.v c + e * B.scatter c } a)
          (plus w e wsc).toInit = .ok (r e)) ∧
      B.forward gv gs cb' nt (scaleAmp B.base a) (scaleAmpSc B a) w.toInit wsc.toInit = .ok b ∧
      (∀ t i, HasDerivAt (fun e => (r e).rcd t i) (b.rcdsc t i) 0) ∧
      (∀ c, HasDerivAt (fun e => (r e).out.wfc c) (b.outsc.wfc c) 0) ∧
      (∀ c, HasDerivAt (fun e => (r e).out.wfp c) (b.outsc.wfp c) 0) ∧
      (∀ k c, HasDerivAt (fun e => (r e).out.psi k c) (b.outsc.psi k c) 0) ∧
      ∀ k c, HasDerivAt (fun e => (r e).out.zeta k c) (b.outsc.zeta k c) 0 := by
  have hw : ∀ e : ℝ, ({ B.base with v := fun c => B.base.v c + e * B.scatter c, rcv := B.rcvsc } :
      Cfg d ns nq ℝ).WF := fun e => by
    have p := B.base.pert_wf h.base B.scatter e
    exact ⟨p.w0_nonneg, p.w1_nonneg, p.size, p.a_mid, p.b_mid, p.db_mid, p.src_in, h.rcvsc_in⟩
  refine ⟨_, _, fun e => Cfg.forward_eq (hw e) grad cb nt _ _ hr hcf,
    forward_eq h.base gv gs cb' nt _ _ _ _ hr hcf', ?_⟩
  have run_eq : ∀ (e : ℝ) (f : ℕ → Fin ns → ℝ) (s : St d ℝ) (n : ℕ),
      Cfg.run ({ B.base with v := fun c => B.base.v c + e * B.scatter c, rcv := B.rcvsc } :
        Cfg d ns nq ℝ) f 0 s n = (B.base.pert B.scatter e).run f 0 s n :=
    fun e f s n => run_rcv (B.base.pert B.scatter e) B.rcvsc f 0 s n
  have key := hasDeriv_scRun (B := B) (fun t i => scaleAmp_hasDeriv (B := B) a t i)
    (start_plus_hasDeriv B.base w wsc)
  have e0 : plus w 0 wsc = w := by simp [plus]
  simp only [Cfg.pert_zero, e0] at key
  simp only [run_eq]
  refine ⟨fun t i => ?_, fun c => ?_, fun c => ?_, fun k c => ?_, fun k c => ?_⟩
  · by_cases ht : t < nt / B.base.ratio * B.base.ratio
    · simp only [ht, if_true, sample]
      cases B.rcvsc i with
      | none => exact hasDerivAt_const _ _
      | some c => exact (key t).u c
    · simp only [ht, if_false]
      exact hasDerivAt_const _ _
  · exact (key (nt / B.base.ratio * B.base.ratio)).u fun k => c k + B.base.acc.pad
  · exact (key (nt / B.base.ratio * B.base.ratio)).p fun k => c k + B.base.acc.pad
  · exact (key (nt / B.base.ratio * B.base.ratio)).psi k fun k => c k + B.base.acc.pad
  · exact (key (nt / B.base.ratio * B.base.ratio)).zeta k fun k => c k + B.base.acc.pad

example : ∃ (r : ℝ → FwdResult 2 1 ℝ) (b : FResult 2 1 1 ℝ), ∀ t i,
    HasDerivAt (fun e => (r e).rcd t i) (b.rcdsc t i) 0 := by
  obtain ⟨r, b, -, -, h, -⟩ := C29_born_is_derivative (exB_wf ℝ) (by decide) true true true none
    (some 2) 14 (by decide) (by decide) (exAmp ℝ) ⟨fun c => c 0, fun _ => 1, fun _ _ => 2, fun _ c => c 1⟩
    ⟨fun c => c 1, fun _ => 3, fun _ _ => 5, fun _ c => c 0⟩
  exact ⟨r, b, h⟩

/-! ### Padding of the two models

`scalar` pads the velocity by replication, `scalar_born` pads the velocity by replication and the
scattering potential by zeros.  The direction in C29 is the padded scattering potential. -/

open Dw.Setup in
/-- If the scattering potential vanishes outside `inner`, a set of cells of the extent from which no
cell is used for padding, then the padded velocity of `v + e scatter` is the padded velocity of `v`
plus `e` times the padded scattering potential, so C29 is about the user's arrays. -/
theorem C29_padded_direction (m σ m' σ' m2 : ModelT d ℝ) (ext : Fin d → ℤ × ℤ)
    (p0 p1 : Fin d → ℤ) (nBatch : ℕ) (hnb : nBatch ≠ 0)
    (hext : ∀ k, 0 ≤ (ext k).1 ∧ (ext k).2 ≤ m.shape k) (e : ℝ) (hsh : σ.shape = m.shape)
    (hedge : ∀ s x, (∃ k, x k = (ext k).1 ∨ x k = (ext k).2 - 1) → σ.val s x = 0)
    (hm : extractModel m m.shape ext (padList p0 p1) .replicate nBatch = .ok m')
    (hσ : extractModel σ σ.shape ext (padList p0 p1) .constant nBatch = .ok σ')
    (h2 : extractModel { m with val := fun s x => m.val s x + e * σ.val s x } m.shape ext
      (padList p0 p1) .replicate nBatch = .ok m2) (s : ℕ) (c : Cell d) :
    m2.val s c = m'.val s c + e * σ'.val s c := by
  obtain ⟨-, -, hlt, hv⟩ := C19_replicate m m' ext p0 p1 nBatch hnb hext hm
  obtain ⟨-, -, -, hv2⟩ := C19_replicate
    { m with val := fun s x => m.val s x + e * σ.val s x } m2 ext p0 p1 nBatch hnb hext h2
  obtain ⟨-, -, hvs⟩ := C19_constant σ σ' ext p0 p1 nBatch hnb
    (fun k => ⟨(hext k).1, by rw [hsh]; exact (hext k).2, (hlt k).le⟩) hσ
  rw [hv, hv2, hvs]
  simp only
  congr 2
  split_ifs with hc
  · congr 1
    funext k
    have := hc k
    omega
  · apply hedge
    push Not at hc
    obtain ⟨k, hk⟩ := hc
    refine ⟨k, ?_⟩
    have := hlt k
    by_cases h1 : (ext k).1 ≤ c k - p0 k + (ext k).1
    · have := hk h1; omega
    · omega

open Dw.Setup in
/-- Without that condition the two differ: a scattering potential that is 1 on the edge is 0 in the
padding of `scalar_born`, but perturbs the padding of `scalar`. -/
theorem C29_padded_direction_edge : ∃ (m σ m' σ' m2 : ModelT 1 ℝ) (c : Cell 1),
    extractModel m m.shape ![(0, 2)] (padList ![1] ![1]) .replicate 1 = .ok m' ∧
    extractModel σ σ.shape ![(0, 2)] (padList ![1] ![1]) .constant 1 = .ok σ' ∧
    extractModel { m with val := fun s x => m.val s x + 1 * σ.val s x } m.shape ![(0, 2)]
      (padList ![1] ![1]) .replicate 1 = .ok m2 ∧
    m2.val 0 c ≠ m'.val 0 c + 1 * σ'.val 0 c := by
  let m : ModelT 1 ℝ := ⟨none, ![2], fun _ _ => 0⟩
  let σ : ModelT 1 ℝ := ⟨none, ![2], fun _ _ => 1⟩
  have ok : ∀ (v : ℕ → (Fin 1 → ℤ) → ℝ) mode, ∃ m',
      extractModel (⟨none, ![2], v⟩ : ModelT 1 ℝ) ![2] ![(0, 2)] (padList ![1] ![1]) mode 1 = .ok m' := by
    intro v mode
    unfold extractModel
    rw [if_neg (by simp)]
    simp only
    rw [if_neg (by simp), if_neg (by simp), if_neg (by rintro ⟨-, k, hk⟩; fin_cases k; simp [sliceLen] at hk)]
    exact ⟨_, rfl⟩
  obtain ⟨m', hm⟩ := ok m.val .replicate
  obtain ⟨σ', hσ⟩ := ok σ.val .constant
  obtain ⟨m2, h2⟩ := ok (fun s x => m.val s x + 1 * σ.val s x) .replicate
  refine ⟨m, σ, m', σ', m2, ![0], hm, hσ, h2, ?_⟩
  obtain ⟨-, -, -, v1⟩ := C19_replicate m m' _ _ _ 1 (by decide) (by intro k; fin_cases k; simp [m]) hm
  obtain ⟨-, -, -, v2⟩ := C19_replicate { m with val := fun s x => m.val s x + 1 * σ.val s x } m2 _ _ _ 1
    (by decide) (by intro k; fin_cases k; simp [m]) h2
  obtain ⟨-, -, v3⟩ := C19_constant σ σ' _ _ _ 1 (by decide) (by intro k; fin_cases k; simp [σ]) hσ
  rw [v1, v2, v3]
  simp [m, σ]

/-! ## C30 -/

section
variable {R : Type*} [Field R] {B : BCfg d ns nr nq R}

theorem scBRun_scatter (σ : Fld d R) (grsc : ℕ → Fin nq → R) (T : ℕ) (μ : St d R) (n : ℕ) :
    scBRun { B with scatter := σ } grsc T μ n = scBRun B grsc T μ n := by
  induction n with
  | zero => rfl
  | succ n ih => rw [scBRun, scBRun, ih]; rfl

/-- The identity behind C30, for the recursions. -/
theorem scatter_gradient (h : B.WF) (hr : B.base.ratio = 1) (nt : ℕ) (f fsc : ℕ → Fin ns → R)
    (s : St d R) (wsc gsc : Wavefields d R) (grsc : ℕ → Fin nq → R) (σ : Fld d R)
    (snaps : ℕ → Fld d R)
    (hsn : ∀ t < nt, snaps t = lapIn B.base (B.base.run f 0 s t)) :
    traceInner nt grsc (fun t => if t < nt then
        sample B.rcvsc (scRun { B with scatter := σ } f fsc s (B.base.start wsc.toInit) t).u
        else fun _ => 0)
      + (B.base.outOf (scRun { B with scatter := σ } f fsc s (B.base.start wsc.toInit) nt)).inner
        B.base.userCells gsc =
    traceInner nt fsc (fun t => if t < nt then
        sample B.base.src (scBRun B grsc nt (B.base.bStart gsc.toInit) (nt - 1 - t)).u else fun _ => 0)
      + wsc.inner B.base.userCells (bOutOf B.base (scBRun B grsc nt (B.base.bStart gsc.toInit) nt))
      + ∑ c ∈ B.base.modelCells, σ c * ∑ i ∈ Finset.range nt,
          gsAt B true snaps grsc nt (B.base.bStart gsc.toInit) i c := by
  have h' : ({ B with scatter := σ } : BCfg d ns nr nq R).WF := ⟨h.base, h.rcvsc_in⟩
  have hm := B.base.bStart_good gsc.toInit
  have hl := B.base.start_good wsc.toInit
  have gsc' := scRun_good (B := { B with scatter := σ }) h.base f fsc s hl nt
  have gm := scBRun_good h grsc nt hm nt
  rw [traceInner_of_lt le_rfl, traceInner_of_lt le_rfl, B.base.inner_out _ gsc', bOutOf,
    B.base.inner_start wsc _ gm]
  have key := pair_scRun (B := { B with scatter := σ }) h' s hl hm f fsc grsc nt
  simp only [scBRun_scatter] at key
  have hg : ∑ c ∈ B.base.modelCells, σ c * ∑ i ∈ Finset.range nt,
        gsAt B true snaps grsc nt (B.base.bStart gsc.toInit) i c =
      ∑ t ∈ Finset.range nt, dot B.base.S (fun c => σ c * B.base.snap (B.base.run f 0 s t) c)
        (scBRun B grsc nt (B.base.bStart gsc.toInit) (nt - 1 - t)).u := by
    rw [B.base.sum_modelCells (F := fun c => σ c * _) (fun c hc => by simp [gsAt, hc])]
    simp only [Finset.mul_sum]
    rw [Finset.sum_comm, ← Finset.sum_range_reflect]
    refine Finset.sum_congr rfl fun t ht => ?_
    rw [Finset.mem_range] at ht
    refine Finset.sum_congr rfl fun c hc => ?_
    rw [Cfg.mem_S] at hc
    have e1 : nt - 1 - (nt - 1 - t) = t := by omega
    simp only [gsAt, hr, Nat.mod_one, hc, beq_self_eq_true, Bool.and_self, and_self, if_true, e1,
      Nat.div_one, Nat.cast_one, mul_one, hsn t ht, lapIn, Cfg.snap]
    ring
  rw [hg]
  linear_combination key

/-- **C30** If snapshots are stored at every internal step (`ratio = 1`), the scatter gradient `gs`
of the Born backward passes is the transpose of the map from the scattering potential to the
scattered data.  For any scattering potential `σ`, amplitudes `fsc` and initial wavefields `wsc`,
`⟨grsc, scattered data⟩ + ⟨gsc, scattered wavefields⟩ = ⟨σ, gs⟩ + ⟨fsc, gfsc⟩ + ⟨wsc, outsc⟩`;
with `fsc = 0` and `wsc = 0` the last two terms vanish.  `b` is computed by `backward`, `b'` by
`backward_sc`; both give the same gradients. -/
theorem C30_scatter_gradient_is_transpose (h : B.WF) (hr : B.base.ratio = 1) (gv gv' : Bool)
    (cb cb' cb'' : Option ℕ) (nt : ℕ) (hcf : 0 < nt → 0 < cb.getD nt)
    (hcf' : 0 < nt → 0 < cb'.getD nt) (hcf'' : 0 < nt → 0 < cb''.getD nt)
    (f fsc : ℕ → Fin ns → R) (w : Init d R) (wsc : Wavefields d R) (gr : ℕ → Fin nr → R)
    (grsc : ℕ → Fin nq → R) (g : Init d R) (gsc : Wavefields d R) :
    ∃ r b b', B.forward gv true cb nt f fsc w wsc.toInit = .ok r ∧
      B.backward gv' true cb' nt r.w r.wsc gr grsc g gsc.toInit = .ok b ∧
      B.backwardSc true cb'' nt r.w grsc gsc.toInit = .ok b' ∧
      b'.gs = b.gs ∧ b'.gfsc = b.gfsc ∧ b'.outsc = b.outsc ∧
      ∀ (σ : Fld d R) (fsc₁ : ℕ → Fin ns → R) (wsc₁ : Wavefields d R),
        ∃ r₁, ({ B with scatter := σ } : BCfg d ns nr nq R).forward gv true cb nt f fsc₁ w wsc₁.toInit
            = .ok r₁ ∧
          traceInner nt grsc r₁.rcdsc + r₁.outsc.inner B.base.userCells gsc =
            ∑ c ∈ B.base.modelCells, σ c * b.gs c
              + (traceInner nt fsc₁ b.gfsc + wsc₁.inner B.base.userCells b.outsc) := by
  have hr0 : 0 < B.base.ratio := by omega
  have hdiv : nt / B.base.ratio = nt := by rw [hr]; simp
  have hdm : nt / B.base.ratio * B.base.ratio = nt := by rw [hr]; simp
  have fe := forward_eq h.base gv true cb nt f fsc w wsc.toInit hr0 (by rwa [hdiv])
  refine ⟨_, _, _, fe, backward_eq h gv' true cb' nt _ _ gr grsc g gsc.toInit hr0 (by rwa [hdiv]),
    backwardSc_eq h true cb'' nt _ grsc gsc.toInit hr0 (by rwa [hdiv]), rfl, rfl, rfl, ?_⟩
  intro σ fsc₁ wsc₁
  refine ⟨_, forward_eq (B := { B with scatter := σ }) h.base gv true cb nt f fsc₁ w wsc₁.toInit hr0
    (by change 0 < nt → 0 < cb.getD (nt / B.base.ratio); rwa [hdiv]), ?_⟩
  simp only [hdm]
  rw [scatter_gradient h hr nt f fsc₁ (B.base.start w) wsc₁ gsc grsc σ
    (fun j => if (gv || true) = true ∧ j < nt / B.base.ratio then
      lapIn B.base (B.base.run f 0 (B.base.start w) (j * B.base.ratio)) else fun _ => 0)]
  · ring
  · intro t ht
    simp only [hr, Nat.div_one, ht, Bool.or_true, and_self, if_true, mul_one]

example : ∃ r b b', ({ exB ℚ with base := { exCfgOf ℚ with ratio := 1 } } : BCfg 2 2 1 1 ℚ).forward
      true true (some 3) 5 (exAmp ℚ) (exAmp ℚ) (exInit ℚ)
      (Wavefields.toInit ⟨fun _ => 1, fun _ => 2, fun _ _ => 3, fun _ _ => 4⟩) = .ok r ∧
    ({ exB ℚ with base := { exCfgOf ℚ with ratio := 1 } } : BCfg 2 2 1 1 ℚ).backward true true none 5
      r.w r.wsc (fun _ _ => 1) (fun t _ => t) (exInit ℚ)
      (Wavefields.toInit ⟨fun _ => 1, fun _ => 2, fun _ _ => 3, fun _ _ => 4⟩) = .ok b ∧
    ({ exB ℚ with base := { exCfgOf ℚ with ratio := 1 } } : BCfg 2 2 1 1 ℚ).backwardSc true none 5
      r.w (fun t _ => t)
      (Wavefields.toInit ⟨fun _ => 1, fun _ => 2, fun _ _ => 3, fun _ _ => 4⟩) = .ok b' := by
  have hw : ({ exB ℚ with base := { exCfgOf ℚ with ratio := 1 } } : BCfg 2 2 1 1 ℚ).WF :=
    ⟨{ exCfgOf_wf ℚ with }, (exB_wf ℚ).rcvsc_in⟩
  obtain ⟨r, b, b', h1, h2, h3, -⟩ := C30_scatter_gradient_is_transpose hw rfl true true (some 3) none
    none 5 (by decide) (by decide) (by decide) (exAmp ℚ) (exAmp ℚ) (exInit ℚ)
    ⟨fun _ => 1, fun _ => 2, fun _ _ => 3, fun _ _ => 4⟩ (fun _ _ => 1) (fun t _ => t) (exInit ℚ)
    ⟨fun _ => 1, fun _ => 2, fun _ _ => 3, fun _ _ => 4⟩
  exact ⟨r, b, b', h1, h2, h3⟩

/-! ## C47 -/

/-- **C47** The dot-product test holds exactly for both fields of the Born propagator together, for
any step ratio and callback schedules: the background adjoint contains the contribution of the
scattered field. -/
theorem C47_born_backward_is_adjoint (h : B.WF) (hr : 0 < B.base.ratio) (gv gs gv' gs' : Bool)
    (cb cb' : Option ℕ) (nt : ℕ) (hcf : 0 < nt → 0 < cb.getD (nt / B.base.ratio))
    (hcf' : 0 < nt → 0 < cb'.getD (nt / B.base.ratio)) (f fsc : ℕ → Fin ns → R)
    (w wsc : Wavefields d R) (gr : ℕ → Fin nr → R) (grsc : ℕ → Fin nq → R) (g gsc : Wavefields d R)
    (snaps snapsSc : ℕ → Fld d R) :
    ∃ r b, B.forward gv gs cb nt f fsc w.toInit wsc.toInit = .ok r ∧
      B.backward gv' gs' cb' nt snaps snapsSc gr grsc g.toInit gsc.toInit = .ok b ∧
      traceInner nt gr r.rcd + traceInner nt grsc r.rcdsc
          + r.out.inner B.base.userCells g + r.outsc.inner B.base.userCells gsc =
        traceInner nt f b.gf + traceInner nt fsc b.gfsc
          + w.inner B.base.userCells b.out + wsc.inner B.base.userCells b.outsc := by
  refine ⟨_, _, forward_eq h.base gv gs cb nt f fsc _ _ hr hcf,
    backward_eq h gv' gs' cb' nt snaps snapsSc gr grsc _ _ hr hcf', ?_⟩
  set T := nt / B.base.ratio * B.base.ratio with hT
  have hTn : T ≤ nt := Nat.div_mul_le_self _ _
  have hs := B.base.start_good w.toInit
  have hl := B.base.start_good wsc.toInit
  have hx := B.base.bStart_good g.toInit
  have hm := B.base.bStart_good gsc.toInit
  simp only [bOutOf]
  rw [traceInner_of_lt hTn, traceInner_of_lt hTn, traceInner_of_lt hTn, traceInner_of_lt hTn,
    B.base.inner_out _ (B.base.run_good h.base f 0 hs T),
    B.base.inner_out _ (scRun_good h.base f fsc _ hl T),
    B.base.inner_start w _ (bgBRun_good h gr grsc T _ hx T),
    B.base.inner_start wsc _ (scBRun_good h grsc T hm T)]
  have := pair_bornRun h hs hl hx hm f fsc gr grsc T
  linear_combination this

example : ∃ r b, (exB ℚ).forward true true (some 3) 14 (exAmp ℚ) (exAmp ℚ)
      (Wavefields.toInit ⟨fun c => c 0, fun _ => 1, fun _ _ => 2, fun _ c => c 1⟩)
      (Wavefields.toInit ⟨fun c => c 1, fun _ => 2, fun _ _ => 2, fun _ c => c 1⟩) = .ok r ∧
    (exB ℚ).backward true true none 14 (fun _ _ => 0) (fun _ _ => 0) (fun t _ => (t : ℚ) + 2)
      (fun t _ => (t : ℚ)) (Wavefields.toInit ⟨fun c => c 1, fun _ => 3, fun _ _ => 5, fun _ c => c 0⟩)
      (Wavefields.toInit ⟨fun c => c 0, fun _ => 3, fun _ _ => 5, fun _ c => c 0⟩) = .ok b := by
  obtain ⟨r, b, h1, h2, -⟩ := C47_born_backward_is_adjoint (exB_wf ℚ) (by decide) true true true true
    (some 3) none 14 (by decide) (by decide) (exAmp ℚ) (exAmp ℚ)
    ⟨fun c => c 0, fun _ => 1, fun _ _ => 2, fun _ c => c 1⟩
    ⟨fun c => c 1, fun _ => 2, fun _ _ => 2, fun _ c => c 1⟩
    (fun t _ => (t : ℚ) + 2) (fun t _ => (t : ℚ))
    ⟨fun c => c 1, fun _ => 3, fun _ _ => 5, fun _ c => c 0⟩
    ⟨fun c => c 0, fun _ => 3, fun _ _ => 5, fun _ c => c 0⟩ (fun _ _ => 0) (fun _ _ => 0)
  exact ⟨r, b, h1, h2⟩

/-! ## C49 -/

/-- **C49** Wavefields, receiver data and stored snapshots of the Born forward pass, and all gradients
of the Born backward passes, are the same with any callback frequencies as without callbacks. -/
theorem C49_born_callback_schedule (h : B.WF) (hr : 0 < B.base.ratio) (gv gs : Bool) (cf nt : ℕ)
    (hcf : 0 < cf) (hnt : nt = 0 ∨ B.base.ratio ≤ nt) (f fsc : ℕ → Fin ns → R) (w wsc : Init d R)
    (snaps snapsSc : ℕ → Fld d R) (gr : ℕ → Fin nr → R) (grsc : ℕ → Fin nq → R) (g gsc : Init d R) :
    ∃ r r' b b' s s',
      B.forward gv gs none nt f fsc w wsc = .ok r ∧ B.forward gv gs (some cf) nt f fsc w wsc = .ok r' ∧
      B.backward gv gs none nt snaps snapsSc gr grsc g gsc = .ok b ∧
      B.backward gv gs (some cf) nt snaps snapsSc gr grsc g gsc = .ok b' ∧
      B.backwardSc gs none nt snaps grsc gsc = .ok s ∧
      B.backwardSc gs (some cf) nt snaps grsc gsc = .ok s' ∧
      { r' with events := [] } = r ∧ { b' with events := [] } = b ∧ { s' with events := [] } = s := by
  have hpos : 0 < nt → 0 < (none : Option ℕ).getD (nt / B.base.ratio) :=
    fun hp => Nat.div_pos (by omega) hr
  exact ⟨_, _, _, _, _, _, forward_eq h.base gv gs none nt f fsc w wsc hr hpos,
    forward_eq h.base gv gs (some cf) nt f fsc w wsc hr fun _ => hcf,
    backward_eq h gv gs none nt snaps snapsSc gr grsc g gsc hr hpos,
    backward_eq h gv gs (some cf) nt snaps snapsSc gr grsc g gsc hr fun _ => hcf,
    backwardSc_eq h gs none nt snaps grsc gsc hr hpos,
    backwardSc_eq h gs (some cf) nt snaps grsc gsc hr fun _ => hcf, rfl, rfl, rfl⟩

/-- **C49** The forward callback runs at steps 0, `cf`, `2 cf`, ... below the number of outer steps,
and sees the wavefields of both fields which a forward pass of only that many steps returns. -/
theorem C49_born_forward_events (h : B.WF) (hr : 0 < B.base.ratio) (gv gs : Bool) (cf nt : ℕ)
    (hcf : 0 < cf) (f fsc : ℕ → Fin ns → R) (w wsc : Init d R) :
    ∃ r, B.forward gv gs (some cf) nt f fsc w wsc = .ok r ∧
      r.events.map FEvent.step = (List.range ((nt / B.base.ratio + cf - 1) / cf)).map (· * cf) ∧
      ∀ e ∈ r.events, ∃ r', B.forward gv gs none (e.step * B.base.ratio) f fsc w wsc = .ok r' ∧
        B.base.unpad e.bg.wfc = r'.out.wfc ∧ B.base.unpad e.bg.wfp = r'.out.wfp ∧
        B.base.unpad e.sc.wfc = r'.outsc.wfc ∧ B.base.unpad e.sc.wfp = r'.outsc.wfp ∧
        ∀ k, B.base.unpad (e.bg.psi k) = r'.out.psi k ∧ B.base.unpad (e.bg.zeta k) = r'.out.zeta k ∧
          B.base.unpad (e.sc.psi k) = r'.outsc.psi k ∧ B.base.unpad (e.sc.zeta k) = r'.outsc.zeta k := by
  refine ⟨_, forward_eq h.base gv gs (some cf) nt f fsc w wsc hr fun _ => hcf, ?_, ?_⟩
  · simp only [List.map_map]
    rfl
  · intro e he
    simp only [List.mem_map, List.mem_range] at he
    obtain ⟨i, -, rfl⟩ := he
    have hd : (fEventAt B f fsc (B.base.start w) (B.base.start wsc) (i * cf)).step = i * cf := rfl
    have hdiv : i * cf * B.base.ratio / B.base.ratio = i * cf := Nat.mul_div_cancel _ hr
    refine ⟨_, forward_eq h.base gv gs none _ f fsc w wsc hr ?_, ?_⟩
    · rw [hd, hdiv]
      intro hp
      exact Nat.pos_of_mul_pos_right hp
    · simp only [hd, hdiv]
      exact ⟨rfl, rfl, rfl, rfl, fun k => ⟨rfl, rfl, rfl, rfl⟩⟩

end

/-! ## C48 -/

/-- **C48** If snapshots are stored at every internal step (`ratio = 1`), the velocity gradient
returned by the Born backward pass is the derivative, with respect to the background velocity, of
`⟨gr, receiver data⟩ + ⟨grsc, scattered receiver data⟩ + ⟨g, wavefields⟩ + ⟨gsc, scattered
wavefields⟩`. -/
theorem C48_born_velocity_gradient (h : B.WF) (hr : B.base.ratio = 1) (gs gs' : Bool)
    (cb cb' : Option ℕ) (nt : ℕ) (hcf : 0 < nt → 0 < cb.getD nt) (hcf' : 0 < nt → 0 < cb'.getD nt)
    (f fsc : ℕ → Fin ns → ℝ) (w wsc g gsc : Wavefields d ℝ) (gr : ℕ → Fin nr → ℝ)
    (grsc : ℕ → Fin nq → ℝ) (δ : Fld d ℝ) :
    ∃ (r : ℝ → FResult d nr nq ℝ) (b : BResult d ns ℝ),
      (∀ e : ℝ, ({ B with base := { B.base with v := fun c => B.base.v c + e * δ c } } :
        BCfg d ns nr nq ℝ).forward true gs cb nt f fsc w.toInit wsc.toInit = .ok (r e)) ∧
      B.backward true gs' cb' nt (r 0).w (r 0).wsc gr grsc g.toInit gsc.toInit = .ok b ∧
      HasDerivAt (fun e => traceInner nt gr (r e).rcd + traceInner nt grsc (r e).rcdsc
          + (r e).out.inner B.base.userCells g + (r e).outsc.inner B.base.userCells gsc)
        (∑ c ∈ B.base.modelCells, δ c * b.gv c) 0 := by
  have hr0 : 0 < B.base.ratio := by omega
  have hdiv : nt / B.base.ratio = nt := by rw [hr]; simp
  have hdm : nt / B.base.ratio * B.base.ratio = nt := by rw [hr]; simp
  refine ⟨_, _, fun e => forward_eq (B := B.pert δ e) (B.pert_wf h δ e).base true gs cb nt f fsc _ _ hr0
      (by change 0 < nt → 0 < cb.getD (nt / B.base.ratio); rwa [hdiv]),
    backward_eq h true gs' cb' nt _ _ gr grsc _ _ hr0 (by rwa [hdiv]), ?_⟩
  have hratio : ∀ e, (B.pert δ e).base.ratio = B.base.ratio := fun _ => rfl
  have hs : ∀ e (w : Init d ℝ), (B.pert δ e).base.start w = B.base.start w := fun _ _ => rfl
  simp only [hratio, hr, Nat.div_one, mul_one, hs]
  set s := B.base.start w.toInit with hsdef
  set l := B.base.start wsc.toInit with hldef
  set x := B.base.bStart g.toInit with hxdef
  set μ := B.base.bStart gsc.toInit with hmdef
  have hx : B.base.Good x := B.base.bStart_good _
  have hm : B.base.Good μ := B.base.bStart_good _
  have hobj : ∀ e, traceInner nt gr (fun t => if t < nt then
        sample (B.pert δ e).base.rcv ((B.pert δ e).base.run f 0 s t).u else fun _ => 0)
      + traceInner nt grsc (fun t => if t < nt then
        sample (B.pert δ e).rcvsc (scRun (B.pert δ e) f fsc s l t).u else fun _ => 0)
      + ((B.pert δ e).base.outOf ((B.pert δ e).base.run f 0 s nt)).inner B.base.userCells g
      + ((B.pert δ e).base.outOf (scRun (B.pert δ e) f fsc s l nt)).inner B.base.userCells gsc =
      B.base.pair ((B.base.pert δ e).run f 0 s nt) x
        + B.base.pair (scRun (B.pert δ e) f fsc s l nt) μ
        + ∑ t ∈ Finset.range nt, ∑ i, gr t i
            * sample B.base.rcv ((B.base.pert δ e).run f 0 s t).u i
        + ∑ t ∈ Finset.range nt, ∑ i, grsc t i * sample B.rcvsc (scRun (B.pert δ e) f fsc s l t).u i := by
    intro e
    have hwf := B.pert_wf h δ e
    have g1 := (B.pert δ e).base.run_good hwf.base f 0 ((B.pert δ e).base.start_good w.toInit) nt
    have g2 := scRun_good (B := B.pert δ e) hwf.base f fsc s ((B.pert δ e).base.start_good wsc.toInit) nt
    have i1 := B.base.inner_out _ ⟨g1.u, g1.p, g1.psi, g1.zeta, g1.psi_mid, g1.zeta_mid⟩ g
    have i2 := B.base.inner_out _ ⟨g2.u, g2.p, g2.psi, g2.zeta, g2.psi_mid, g2.zeta_mid⟩ gsc
    rw [traceInner_of_lt le_rfl, traceInner_of_lt le_rfl]
    change _ + _ + (B.base.outOf _).inner _ g + (B.base.outOf _).inner _ gsc = _
    have i1' : Wavefields.inner B.base.userCells (B.base.outOf ((B.base.pert δ e).run f 0 s nt)) g =
        B.base.pair ((B.base.pert δ e).run f 0 s nt) x := i1
    have i2' : Wavefields.inner B.base.userCells (B.base.outOf (scRun (B.pert δ e) f fsc s l nt)) gsc =
        B.base.pair (scRun (B.pert δ e) f fsc s l nt) μ := i2
    have eb : (B.pert δ e).base = B.base.pert δ e := rfl
    have er : (B.base.pert δ e).rcv = B.base.rcv := rfl
    have er2 : (B.pert δ e).rcvsc = B.rcvsc := rfl
    rw [eb, er, er2, i1', i2']
    ring
  simp only [hobj]
  have hrun := fun n => B.base.hasDeriv_run δ f s n
  have hrun2 := fun n => hasDeriv_t2Run (B := B) δ f fsc s l n
  have hdot : ∀ (x : ℝ → Fld d ℝ) (x' y : Fld d ℝ), (∀ c, HasDerivAt (fun e => x e c) (x' c) 0) →
      HasDerivAt (fun e => dot B.base.S (x e) y) (dot B.base.S x' y) 0 := by
    intro x x' y hx
    simp only [dot]
    exact HasDerivAt.fun_sum fun c _ => (hx c).mul_const _
  have hpair : ∀ (x : ℝ → St d ℝ) (x' y : St d ℝ), St.HasDeriv x x' 0 →
      HasDerivAt (fun e => B.base.pair (x e) y) (B.base.pair x' y) 0 := fun x x' y hx =>
    (((hdot _ _ _ hx.u).sub (hdot _ _ _ hx.p)).add
      (HasDerivAt.fun_sum fun k _ => hdot _ _ _ (hx.psi k))).add
      (HasDerivAt.fun_sum fun k _ => hdot _ _ _ (hx.zeta k))
  have hsam : ∀ {m : ℕ} (loc : Fin m → Option (Cell d)) (x : ℝ → St d ℝ) (x' : St d ℝ) (i : Fin m),
      St.HasDeriv x x' 0 → HasDerivAt (fun e => sample loc (x e).u i) (sample loc x'.u i) 0 := by
    intro m loc x x' i hx
    simp only [sample]
    cases loc i with
    | none => exact hasDerivAt_const _ _
    | some c => exact hx.u c
  have hd := (((hpair _ _ x (hrun nt)).add (hpair _ _ μ (hrun2 nt))).add
    (HasDerivAt.fun_sum (u := Finset.range nt) fun t _ => HasDerivAt.fun_sum (u := Finset.univ)
      fun i _ => (hsam B.base.rcv _ _ i (hrun t)).const_mul (gr t i))).add
    (HasDerivAt.fun_sum (u := Finset.range nt) fun t _ => HasDerivAt.fun_sum (u := Finset.univ)
      fun i _ => (hsam B.rcvsc _ _ i (hrun2 t)).const_mul (grsc t i))
  refine hd.congr_deriv ?_
  rw [pair_t2Run h s l hx hm f fsc δ gr grsc nt]
  rw [B.base.sum_modelCells (F := fun c => δ c * _) (fun c hc => ?_)]
  · simp only [Finset.mul_sum]
    rw [Finset.sum_comm, ← Finset.sum_range_reflect]
    refine Finset.sum_congr rfl fun t ht => ?_
    rw [Finset.mem_range] at ht
    have e1 : nt - 1 - (nt - 1 - t) = t := by omega
    simp only [dot, ← Finset.sum_add_distrib]
    refine Finset.sum_congr rfl fun c hc => ?_
    rw [Cfg.mem_S] at hc
    have p0 : (B.pert δ 0).base = B.base := by rw [B.pert_zero]
    simp only [gvAt, hr, Nat.mod_one, hc, beq_self_eq_true, Bool.and_self, and_self, if_true, e1,
      Nat.div_one, Nat.cast_one, mul_one, true_and, Bool.true_or]
    rw [if_pos (by omega), if_pos (by omega), BCfg.pert_zero]
    simp only [lapIn, Cfg.snap, hc, if_true]
    ring
  · simp [gvAt, hc]

example : ∃ (r : ℝ → FResult 2 1 1 ℝ) (b : BResult 2 2 ℝ),
    ({ exB ℝ with base := { exCfgOf ℝ with ratio := 1 } } : BCfg 2 2 1 1 ℝ).backward true true none 5
      (r 0).w (r 0).wsc (fun _ _ => 1) (fun t _ => t)
      (Wavefields.toInit ⟨fun _ => 1, fun _ => 2, fun _ _ => 3, fun _ _ => 4⟩)
      (Wavefields.toInit ⟨fun _ => 1, fun _ => 2, fun _ _ => 3, fun _ _ => 4⟩) = .ok b := by
  have hw : ({ exB ℝ with base := { exCfgOf ℝ with ratio := 1 } } : BCfg 2 2 1 1 ℝ).WF :=
    ⟨{ exCfgOf_wf ℝ with }, (exB_wf ℝ).rcvsc_in⟩
  obtain ⟨r, b, -, h2, -⟩ := C48_born_velocity_gradient hw rfl true true none none 5 (by decide)
    (by decide) (exAmp ℝ) (exAmp ℝ) ⟨fun _ => 1, fun _ => 2, fun _ _ => 3, fun _ _ => 4⟩
    ⟨fun _ => 1, fun _ => 2, fun _ _ => 3, fun _ _ => 4⟩
    ⟨fun _ => 1, fun _ => 2, fun _ _ => 3, fun _ _ => 4⟩
    ⟨fun _ => 1, fun _ => 2, fun _ _ => 3, fun _ _ => 4⟩ (fun _ _ => 1) (fun t _ => t) (fun c => c 0)
  exact ⟨r, b, h2⟩

end Dw.Born
