import Verif.Acoustic.Adjoint
import Verif.Props.ScalarBackward

/-!
# Properties of the acoustic propagator

`C.forward gk gb cb nt fp fv w` models the forward pass: `fp`, `fv` are the scaled amplitudes of the
pressure and velocity sources, `w` the initial wavefields.  `C.backward gk gb cb nt storeK storeB
grP grV g` models the backward pass: `grP`, `grV` are the gradients of the pressure and velocity
receiver data, `g` that of the final wavefields.
-/

namespace Dw.Acoustic

open Dw.Scalar (inject sample traceInner traceInner_of_lt exMid exN)

variable {d np mp : ℕ} {nv mv : Fin d → ℕ}

/-! ### A concrete configuration for the examples -/

/-- Two dimensions, accuracy 4, PML widths 1 and 2, non-zero profiles in the PML, variable models, a
used and an ignored pressure source, one source and receiver of each velocity component, step
ratio 2. -/
def exA (R : Type*) [Field R] : Cfg 2 2 1 (fun _ => 1) (fun _ => 1) R where
  acc := .a4
  n := exN
  w0 := fun _ => 1
  w1 := fun _ => 2
  dx := fun k => if k = 0 then 1 else 2
  dt := 1 / 10
  a := fun k x => if 3 ≤ x ∧ x < exN k - 3 then 0 else 1 / 2
  b := fun k x => if 3 ≤ x ∧ x < exN k - 3 then 0 else -1 / 3
  ah := fun k x => if 3 ≤ x ∧ x < exN k - 4 then 0 else 1 / 5
  bh := fun k x => if 3 ≤ x ∧ x < exN k - 4 then 0 else -1 / 7
  K := fun c => 3 + (c 0 : R) / 10
  B := fun k c => 1 + (c k : R) / 10
  srcP := fun i => if i = 0 then some ![4, 5] else none
  srcV := fun _ _ => some ![5, 5]
  rcvP := fun _ => some ![4, 7]
  rcvV := fun _ _ => some ![6, 6]
  ratio := 2

theorem exA_wf (R : Type*) [Field R] : (exA R).WF := by
  have inn : ∀ x y : ℤ, 2 ≤ x → x < 10 → 2 ≤ y → y < 11 → ∀ k, (exA R).InnerH k ![x, y] := by
    intro x y h1 h2 h3 h4 k
    refine ⟨fun j => ?_, ?_⟩
    · fin_cases j <;> simp [exA, Acc.pad, exN] <;> omega
    · fin_cases k <;> simp [exA, Acc.pad, exN] <;> omega
  refine ⟨fun _ => by simp [exA], fun _ => by simp [exA], fun k => ?_, fun k x h => ?_,
    fun k x h => ?_, fun k x h => ?_, fun k x h => ?_, fun i c h => ?_, fun k i c h => ?_,
    fun i c h => ?_, fun k i c h => ?_⟩
  · fin_cases k <;> simp [exA, Acc.pad, exN]
  · simp only [Cfg.Mid, exA, Acc.pad] at h
    exact if_pos (by omega)
  · simp only [Cfg.Mid, exA, Acc.pad] at h
    exact if_pos (by omega)
  · simp only [Cfg.MidH, exA, Acc.pad] at h
    exact if_pos (by omega)
  · simp only [Cfg.MidH, exA, Acc.pad] at h
    exact if_pos (by omega)
  · simp only [exA] at h
    split_ifs at h
    rw [← Option.some.inj h]
    exact (inn 4 5 (by omega) (by omega) (by omega) (by omega) 0).1
  · rw [← Option.some.inj h]
    exact inn 5 5 (by omega) (by omega) (by omega) (by omega) k
  · rw [← Option.some.inj h]
    exact (inn 4 7 (by omega) (by omega) (by omega) (by omega) 0).1
  · rw [← Option.some.inj h]
    exact inn 6 6 (by omega) (by omega) (by omega) (by omega) k

theorem exA_big (R : Type*) [Field R] : (exA R).Big := by
  intro k
  fin_cases k <;> simp [exA, Acc.pad, exN]

def exWf (R : Type*) [Field R] : Wavefields 2 R :=
  ⟨fun c => c 0, fun _ c => c 1, fun _ _ => 2, fun _ c => (c 0 : R) + c 1⟩

section
variable {R : Type*} [Field R] {C : Cfg d np mp nv mv R}

/-! ## C31 -/

/-- **C31** The dot-product test holds exactly for `acoustic`: for all pressure and velocity source
amplitudes, initial wavefields, receiver gradients and final wavefield gradients, whatever the
callback schedules and snapshots, `⟨forward(f, w), (gr, g)⟩ = ⟨(f, w), backward(gr, g)⟩`. -/
theorem C31_acoustic_backward_is_adjoint (h : C.WF) (hb : C.Big) (hr : 0 < C.ratio)
    (gk gb gk' gb' : Bool) (cb cb' : Option ℕ) (nt : ℕ)
    (hcf : 0 < nt → 0 < cb.getD (nt / C.ratio)) (hcf' : 0 < nt → 0 < cb'.getD (nt / C.ratio))
    (fp : ℕ → Fin np → R) (fv : (k : Fin d) → ℕ → Fin (nv k) → R) (w g : Wavefields d R)
    (grP : ℕ → Fin mp → R) (grV : (k : Fin d) → ℕ → Fin (mv k) → R)
    (storeK : ℕ → Fld d R) (storeB : ℕ → Fin d → Fld d R) :
    ∃ r b, C.forward gk gb cb nt fp fv w.toInit = .ok r ∧
      C.backward gk' gb' cb' nt storeK storeB grP grV g.toInit = .ok b ∧
      traceInner nt grP r.rcdP + ∑ k, traceInner nt (grV k) (r.rcdV k)
          + r.out.inner C.userCells g =
        traceInner nt fp b.gfP + ∑ k, traceInner nt (fv k) (b.gfV k)
          + w.inner C.userCells b.out := by
  refine ⟨_, _, forward_eq h gk gb cb nt fp fv _ hr hcf,
    backward_eq h hb gk' gb' cb' nt storeK storeB grP grV _ hr hcf', ?_⟩
  set T := nt / C.ratio * C.ratio with hT
  have hTn : T ≤ nt := Nat.div_mul_le_self _ _
  have hg := prepare_good (C := C) w.toInit
  have hl := prepare_good (C := C) g.toInit
  simp only [traceInner_of_lt hTn]
  rw [inner_out (run_good h fp fv hg T), inner_start w (bRun_good h grP grV T hl T)]
  have e := pair_run h hg hl fp fv grP grV T
  rw [Finset.sum_comm (s := Finset.univ) (t := Finset.range T),
    Finset.sum_comm (s := Finset.univ) (t := Finset.range T)]
  linear_combination e

example : ∃ r b, (exA ℚ).forward true true (some 3) 14 (fun t i => (t : ℚ) + (i : ℕ))
      (fun k t _ => (t : ℚ) + (k : ℕ)) (exWf ℚ).toInit = .ok r ∧
    (exA ℚ).backward true true none 14 (fun _ _ => 1) (fun _ _ _ => 2) (fun t _ => (t : ℚ) + 2)
      (fun _ _ _ => 3) (exWf ℚ).toInit = .ok b ∧
    traceInner 14 (fun t _ => (t : ℚ) + 2) r.rcdP + ∑ k, traceInner 14 (fun _ _ => 3) (r.rcdV k)
      + r.out.inner (exA ℚ).userCells (exWf ℚ) =
    traceInner 14 (fun t i => (t : ℚ) + (i : ℕ)) b.gfP
      + ∑ k : Fin 2, traceInner 14 (fun t _ => (t : ℚ) + (k : ℕ)) (b.gfV k)
      + (exWf ℚ).inner (exA ℚ).userCells b.out :=
  C31_acoustic_backward_is_adjoint (exA_wf ℚ) (exA_big ℚ) (by decide) true true true true (some 3)
    none 14 (by decide) (by decide) _ _ _ _ _ _ _ _

/-! ## C32 -/

/-- The cells of the (padded) model arrays. -/
def Cfg.modelCells (C : Cfg d np mp nv mv R) : Finset (Cell d) := box (fun _ => 0) C.n

theorem sum_modelCells {F : Fld d R} (hF : ∀ c, ¬C.Inner c → F c = 0) :
    ∑ c ∈ C.modelCells, F c = ∑ c ∈ C.S, F c := by
  symm
  refine Finset.sum_subset ?_ ?_
  · intro c hc
    rw [Cfg.mem_S] at hc
    simp only [Cfg.modelCells, mem_box]
    intro k
    have := hc k
    have hp := pad_pos C.acc
    omega
  · intro c _ hc
    exact hF c fun hi => hc (Cfg.mem_S.2 hi)

end

/-- **C32** With snapshots stored at every internal step (`ratio = 1`), the backward pass returns the
derivative of the objective `⟨grP, pressure data⟩ + ⟨grV, velocity data⟩ + ⟨g, final wavefields⟩` with
respect to all inputs at once: bulk modulus, buoyancies, source amplitudes and initial wavefields.
Its inner product with any direction `(δK, δB, δp, δv, δw)` is the derivative along it. -/
theorem C32_acoustic_gradients_exact {C : Cfg d np mp nv mv ℝ} (h : C.WF) (hb : C.Big)
    (hr : C.ratio = 1) (cb cb' : Option ℕ) (nt : ℕ) (hcf : 0 < nt → 0 < cb.getD nt)
    (hcf' : 0 < nt → 0 < cb'.getD nt) (fp δp : ℕ → Fin np → ℝ)
    (fv δv : (k : Fin d) → ℕ → Fin (nv k) → ℝ) (w δw g : Wavefields d ℝ) (grP : ℕ → Fin mp → ℝ)
    (grV : (k : Fin d) → ℕ → Fin (mv k) → ℝ) (δK : Fld d ℝ) (δB : Fin d → Fld d ℝ) :
    ∃ (r : ℝ → FResult d mp mv ℝ) (b : BResult d np nv ℝ),
      (∀ e : ℝ, ({ C with K := fun c => C.K c + e * δK c, B := fun k c => C.B k c + e * δB k c } :
        Cfg d np mp nv mv ℝ).forward true true cb nt (fun t i => fp t i + e * δp t i)
          (fun k t i => fv k t i + e * δv k t i) (w.plus e δw).toInit = .ok (r e)) ∧
      C.backward true true cb' nt (r 0).storeK (r 0).storeB grP grV g.toInit = .ok b ∧
      HasDerivAt (fun e => traceInner nt grP (r e).rcdP + ∑ k, traceInner nt (grV k) ((r e).rcdV k)
          + (r e).out.inner C.userCells g)
        (∑ c ∈ C.modelCells, δK c * b.gK c + ∑ k, ∑ c ∈ C.modelCells, δB k c * b.gB k c
          + traceInner nt δp b.gfP + ∑ k, traceInner nt (δv k) (b.gfV k)
          + δw.inner C.userCells b.out) 0 := by
  have hr0 : 0 < C.ratio := by omega
  have hdiv : nt / C.ratio * C.ratio = nt := by rw [hr]; simp
  refine ⟨_, _, fun e => forward_eq (C := C.pert δK δB e) (pert_wf h δK δB e) true true cb nt _ _ _ hr0
    (by change 0 < nt → 0 < cb.getD (nt / C.ratio); rw [hr]; simpa using hcf),
    backward_eq h hb true true cb' nt _ _ grP grV _ hr0 (by rw [hr]; simpa using hcf'), ?_⟩
  have hratio : ∀ e, (C.pert δK δB e).ratio = C.ratio := fun _ => rfl
  have hs : ∀ (e : ℝ) w, (C.pert δK δB e).prepare w = C.prepare w := fun _ _ => rfl
  have hup : ∀ (e : ℝ) w, (C.pert δK δB e).unpadAll w = C.unpadAll w := fun _ _ => rfl
  have hrp : ∀ e, (C.pert δK δB e).rcvP = C.rcvP := fun _ => rfl
  have hrv : ∀ e, (C.pert δK δB e).rcvV = C.rcvV := fun _ => rfl
  simp only [hratio, hdiv, hs, hup, hrp, hrv, traceInner_of_lt le_rfl]
  have hl := prepare_good (C := C) g.toInit
  have hdw := prepare_good (C := C) δw.toInit
  have hst := hasDeriv_prepare (C := C) w δw
  have hrun := fun n => hasDeriv_run (C := C) δK δB fp δp fv δv hst n
  have e0 : w.plus 0 δw = w := by simp [Wavefields.plus]
  simp only [e0] at hrun
  set R : ℝ → ℕ → Wavefields d ℝ := fun e => (C.pert δK δB e).run (fun t i => fp t i + e * δp t i)
    (fun k t i => fv k t i + e * δv k t i) (C.prepare (w.plus e δw).toInit) with hRdef
  set s := C.prepare w.toInit with hsdef
  have hR0 : R 0 = C.run fp fv s := by simp [hRdef, pert_zero, e0, hsdef]
  have hgood : ∀ e n, C.Good (R e n) := fun e n => by
    have gd := run_good (pert_wf h δK δB e) (fun t i => fp t i + e * δp t i)
      (fun k t i => fv k t i + e * δv k t i) (prepare_good (C := C.pert δK δB e) (w.plus e δw).toInit) n
    exact ⟨gd.p, gd.v, gd.phi, gd.psi, gd.phi_mid, gd.psi_mid⟩
  have hin : ∀ e, (C.unpadAll (R e nt)).inner C.userCells g = C.pair (R e nt) (C.prepare g.toInit) :=
    fun e => inner_out (hgood e nt) g
  have hfun : ∀ e, (∑ t ∈ Finset.range nt, ∑ i, grP t i * sample C.rcvP (R e t).p i)
      + (∑ k, ∑ t ∈ Finset.range nt, ∑ i, grV k t i * sample (C.rcvV k) ((R e t).v k) i)
      + (C.unpadAll (R e nt)).inner C.userCells g =
      C.pair (R e nt) (C.prepare g.toInit)
        + (∑ t ∈ Finset.range nt, ∑ i, grP t i * sample C.rcvP (R e t).p i)
        + ∑ t ∈ Finset.range nt, ∑ k, ∑ i, grV k t i * sample (C.rcvV k) ((R e t).v k) i := by
    intro e
    rw [hin, Finset.sum_comm (s := Finset.univ)]
    ring
  change HasDerivAt (fun e => (∑ t ∈ Finset.range nt, ∑ i, grP t i * sample C.rcvP (R e t).p i)
      + (∑ k, ∑ t ∈ Finset.range nt, ∑ i, grV k t i * sample (C.rcvV k) ((R e t).v k) i)
      + (C.unpadAll (R e nt)).inner C.userCells g) _ 0
  simp only [hfun]
  have hdot : ∀ (x : ℝ → Fld d ℝ) (x' y : Fld d ℝ), (∀ c, HasDerivAt (fun e => x e c) (x' c) 0) →
      HasDerivAt (fun e => dot C.S (x e) y) (dot C.S x' y) 0 := by
    intro x x' y hx
    simp only [dot]
    exact HasDerivAt.fun_sum fun c _ => (hx c).mul_const _
  have hsmp : ∀ (m : ℕ) (loc : Fin m → Option (Cell d)) (i : Fin m) (x : ℝ → Fld d ℝ) (x' : Fld d ℝ),
      (∀ c, HasDerivAt (fun e => x e c) (x' c) 0) →
      HasDerivAt (fun e => sample loc (x e) i) (sample loc x' i) 0 := by
    intro m loc i x x' hx
    simp only [sample]
    cases loc i with
    | none => exact hasDerivAt_const _ _
    | some c => exact hx c
  have hd := ((((hdot _ _ (C.prepare g.toInit).p (hrun nt).p).add
      (HasDerivAt.fun_sum (u := Finset.univ) fun k _ =>
        hdot _ _ ((C.prepare g.toInit).v k) ((hrun nt).v k))).add
      (HasDerivAt.fun_sum (u := Finset.univ) fun k _ =>
        hdot _ _ ((C.prepare g.toInit).phi k) ((hrun nt).phi k))).add
      (HasDerivAt.fun_sum (u := Finset.univ) fun k _ =>
        hdot _ _ ((C.prepare g.toInit).psi k) ((hrun nt).psi k))).add
    (HasDerivAt.fun_sum (u := Finset.range nt) fun t _ =>
      HasDerivAt.fun_sum (u := Finset.univ) fun i _ =>
        HasDerivAt.const_mul (grP t i) (hsmp _ C.rcvP i _ _ (hrun t).p))
  have hd := hd.add (HasDerivAt.fun_sum (u := Finset.range nt) fun t _ =>
      HasDerivAt.fun_sum (u := Finset.univ) fun k _ =>
      HasDerivAt.fun_sum (u := Finset.univ) fun i _ =>
        HasDerivAt.const_mul (grV k t i) (hsmp _ (C.rcvV k) i _ _ ((hrun t).v k)))
  refine HasDerivAt.congr_deriv hd ?_
  have e := pair_tRun h s hdw hl fp δp fv δv δK δB grP grV nt
  refine Eq.trans e ?_
  rw [inner_start δw (bRun_good h grP grV nt hl nt),
    Finset.sum_comm (s := Finset.range nt) (t := Finset.univ) (f := fun t k => ∑ i, δv k t i * _),
    Finset.sum_comm (s := Finset.range nt) (t := Finset.univ) (f := fun t k => dot _ _ _)]
  have hK : ∑ c ∈ C.modelCells, δK c * -∑ i ∈ Finset.range nt, gKAt C true
        (fun j => if true = true ∧ j < nt / C.ratio then C.divV (C.halfV (fun k => fv k (j * C.ratio))
          (C.run fp fv s (j * C.ratio))) else fun _ => 0) grP grV nt (C.prepare g.toInit) i c =
      -∑ t ∈ Finset.range nt, dot C.S (fun c => C.dt * δK c
        * C.divV (C.halfV (fun k => fv k t) (C.run fp fv s t)) c)
          (C.bRun grP grV nt (C.prepare g.toInit) (nt - 1 - t)).p := by
    rw [sum_modelCells (F := fun c => δK c * _) (fun c hc => by simp [gKAt, hc])]
    simp only [mul_neg, Finset.sum_neg_distrib, Finset.mul_sum]
    rw [Finset.sum_comm, ← Finset.sum_range_reflect]
    refine congrArg _ (Finset.sum_congr rfl fun t ht => ?_)
    rw [Finset.mem_range] at ht
    refine Finset.sum_congr rfl fun c hc => ?_
    rw [Cfg.mem_S] at hc
    have e1 : nt - 1 - (nt - 1 - t) = t := by omega
    simp only [gKAt, hr, Nat.mod_one, hc, beq_self_eq_true, Bool.and_self, and_self, if_true, e1,
      Nat.div_one, Nat.cast_one, mul_one, ht]
    ring
  have hB : ∀ k, ∑ c ∈ C.modelCells, δB k c * -∑ i ∈ Finset.range nt, gBAt C true
        (fun j k => if true = true ∧ j < nt / C.ratio then C.gradP k (C.run fp fv s (j * C.ratio))
          else fun _ => 0) grP grV nt (C.prepare g.toInit) i k c =
      -∑ t ∈ Finset.range nt, dot C.S (fun c => C.dt * δB k c * C.gradP k (C.run fp fv s t) c)
          ((C.bHalfV (C.bRun grP grV nt (C.prepare g.toInit) (nt - 1 - t))).v k) := by
    intro k
    rw [sum_modelCells (F := fun c => δB k c * _)
      (fun c hc => by simp [gBAt, Cfg.InnerH, hc])]
    simp only [mul_neg, Finset.sum_neg_distrib, Finset.mul_sum]
    rw [Finset.sum_comm, ← Finset.sum_range_reflect]
    refine congrArg _ (Finset.sum_congr rfl fun t ht => ?_)
    rw [Finset.mem_range] at ht
    refine Finset.sum_congr rfl fun c hc => ?_
    have e1 : nt - 1 - (nt - 1 - t) = t := by omega
    by_cases hi : C.InnerH k c
    · simp only [gBAt, hr, Nat.mod_one, hi, beq_self_eq_true, Bool.and_self, and_self, if_true, e1,
        Nat.div_one, Nat.cast_one, mul_one, ht]
      ring
    · simp [gBAt, hi, Cfg.gradP]
  simp only [pert_zero, e0, zero_mul, add_zero, true_and] at hK hB ⊢
  rw [hK, Finset.sum_congr rfl fun k _ => hB k, Finset.sum_neg_distrib]
  ring

/-- The hypotheses of C32 hold for the example with ratio 1. -/
example : ∃ (r : ℝ → FResult 2 1 (fun _ => 1) ℝ) (b : BResult 2 2 (fun _ => 1) ℝ),
    ({ exA ℝ with ratio := 1 } : Cfg 2 2 1 _ _ ℝ).backward true true none 5 (r 0).storeK (r 0).storeB
      (fun _ _ => 1) (fun _ _ _ => 2) (exWf ℝ).toInit = .ok b := by
  have hw : ({ exA ℝ with ratio := 1 } : Cfg 2 2 1 _ _ ℝ).WF := { exA_wf ℝ with }
  obtain ⟨r, b, -, h2, -⟩ := C32_acoustic_gradients_exact hw (exA_big ℝ) rfl none none 5 (by decide)
    (by decide) (fun t _ => (t : ℝ)) (fun _ _ => 1) (fun _ t _ => (t : ℝ)) (fun _ _ _ => 2) (exWf ℝ)
    (exWf ℝ) (exWf ℝ) (fun _ _ => 1) (fun _ _ _ => 2) (fun c => c 0) (fun k c => c k)
  exact ⟨r, b, h2⟩

end Dw.Acoustic
