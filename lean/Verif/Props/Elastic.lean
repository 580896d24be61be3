import Verif.Elastic.Adjoint
import Verif.Core.Steps
import Verif.Props.ScalarBackward

/-!
# Properties of the elastic propagator

`C.forward gl gm gb cb nt fp fv w` models the forward pass: `fp`, `fv` are the scaled amplitudes of the
pressure and velocity sources, `w` the initial wavefields.  `C.backward gl gm gb cb nt storeB storeN
storeS grP grV g` models the backward pass: `grP`, `grV` are the gradients of the (summed) pressure and
velocity receiver data, `g` that of the final wavefields.
-/

namespace Dw.Elastic

open Dw.Scalar (inject sample traceInner traceInner_of_lt exMid exN)
open Dw.Acoustic (pad_pos)

variable {d np mp : ℕ} {nv mv : Fin d → ℕ}

/-! ### A concrete configuration for the examples -/

/-- Two dimensions, accuracy 4, PML widths 1 and 2, non-zero profiles in the PML, variable models, a
used and an ignored pressure source, one source and receiver of each velocity component, step
ratio 2. -/
def exE (R : Type*) [Field R] : Cfg 2 2 1 (fun _ => 1) (fun _ => 1) R where
  acc := .a4
  n := exN
  w0 := fun _ => 1
  w1 := fun _ => 2
  dx := fun k => if k = 0 then 1 else 2
  dt := 1 / 10
  a := fun k x => if 3 ≤ x ∧ x < exN k - 3 then 0 else 1 / 2
  b := fun k x => if 3 ≤ x ∧ x < exN k - 3 then 0 else -1 / 3
  ah := fun k x => if 3 ≤ x ∧ x < exN k - 4 then 0 else 1 / 5
  bh := fun k x => if 3 ≤ x ∧ x < exN k - 4 then 0 else -1 / 7
  lam := fun c => 3 + (c 0 : R) / 10
  mu := fun c => 2 + (c 1 : R) / 10
  muS := fun _ c => 2 + (c 1 : R) / 20
  B := fun k c => 1 + (c k : R) / 10
  srcP := fun i => if i = 0 then some ![4, 5] else none
  srcV := fun _ _ => some ![5, 5]
  rcvP := fun _ => some ![4, 7]
  rcvV := fun _ _ => some ![6, 6]
  ratio := 2

theorem exE_wf (R : Type*) [Field R] : (exE R).WF := by
  have inn : ∀ x y : ℤ, 2 ≤ x → x < 10 → 2 ≤ y → y < 11 → ∀ L, (exE R).InnerAt L ![x, y] := by
    intro x y h1 h2 h3 h4 L
    refine ⟨fun j => ?_, fun k _ => ?_⟩
    · fin_cases j <;> simp [exE, Acc.pad, exN] <;> omega
    · fin_cases k <;> simp [exE, Acc.pad, exN] <;> omega
  refine ⟨fun _ => by simp [exE], fun _ => by simp [exE], fun k => ?_, fun hb k x h => ?_,
    fun hb k x h => ?_, fun i c h => ?_, fun k i c h => ?_, fun i c h => ?_, fun k i c h => ?_⟩
  · fin_cases k <;> simp [exE, Acc.pad, exN]
  · simp only [Cfg.MidAt, exE, Acc.pad] at h
    cases hb <;> simp at h <;> simp only [Cfg.pa, exE, if_true, Bool.false_eq_true, if_false] <;>
      exact if_pos (by omega)
  · simp only [Cfg.MidAt, exE, Acc.pad] at h
    cases hb <;> simp at h <;> simp only [Cfg.pb, exE, if_true, Bool.false_eq_true, if_false] <;>
      exact if_pos (by omega)
  · simp only [exE] at h
    split_ifs at h
    rw [← Option.some.inj h]
    exact (inn 4 5 (by omega) (by omega) (by omega) (by omega) (vLoc 0)).1
  · rw [← Option.some.inj h]
    exact inn 5 5 (by omega) (by omega) (by omega) (by omega) _
  · rw [← Option.some.inj h]
    exact (inn 4 7 (by omega) (by omega) (by omega) (by omega) (vLoc 0)).1
  · rw [← Option.some.inj h]
    exact inn 6 6 (by omega) (by omega) (by omega) (by omega) _

theorem exE_big (R : Type*) [Field R] : (exE R).Big := by
  intro k
  fin_cases k <;> simp [exE, Acc.pad, exN]

def exWf (R : Type*) [Field R] : Wavefields 2 R :=
  ⟨fun _ c => c 1, fun i c => c i, fun _ c => (c 0 : R) * c 1, fun _ _ _ => 2,
    fun _ _ c => (c 0 : R) + c 1⟩

/-- Some snapshots. -/
def exSt (R : Type*) [Field R] : Stores 2 R := ⟨fun _ _ _ => 1, fun _ _ _ => 2, fun _ _ _ => 3⟩

section
variable {R : Type*} [Field R] {C : Cfg d np mp nv mv R}

/-! ## C44 -/

/-- **C44** The dot-product test holds exactly for `elastic`: for all pressure and velocity source
amplitudes, initial wavefields, receiver gradients and final wavefield gradients, whatever the
callback schedules and snapshots, `⟨forward(f, w), (gr, g)⟩ = ⟨(f, w), backward(gr, g)⟩`. -/
theorem C44_elastic_backward_is_adjoint (h : C.WF) (hb : C.Big) (hr : 0 < C.ratio)
    (gl gm gb gl' gm' gb' : Bool) (cb cb' : Option ℕ) (nt : ℕ)
    (hcf : 0 < nt → 0 < cb.getD (nt / C.ratio)) (hcf' : 0 < nt → 0 < cb'.getD (nt / C.ratio))
    (fp : ℕ → Fin np → R) (fv : (k : Fin d) → ℕ → Fin (nv k) → R) (w g : Wavefields d R)
    (grP : ℕ → Fin mp → R) (grV : (k : Fin d) → ℕ → Fin (mv k) → R) (st : Stores d R) :
    ∃ r b, C.forward gl gm gb cb nt fp fv w.toInit = .ok r ∧
      C.backward gl' gm' gb' cb' nt st.b st.n st.s grP grV g.toInit = .ok b ∧
      traceInner nt grP r.rcdP + ∑ k, traceInner nt (grV k) (r.rcdV k)
          + r.out.inner C.userCells g =
        traceInner nt fp b.gfP + ∑ k, traceInner nt (fv k) (b.gfV k)
          + w.inner C.userCells b.out := by
  refine ⟨_, _, forward_eq h gl gm gb cb nt fp fv _ hr hcf,
    backward_eq h hb gl' gm' gb' cb' nt st grP grV _ hr hcf', ?_⟩
  set T := nt / C.ratio * C.ratio with hT
  have hTn : T ≤ nt := Nat.div_mul_le_self _ _
  have hg := prepare_good (C := C) w.toInit
  have hl := prepare_good (C := C) g.toInit
  simp only [traceInner_of_lt hTn]
  rw [inner_out (run_good h fp fv hg T), inner_start w (bRun_good h grP grV T hl T)]
  have e := pair_run h hg hl fp fv grP grV T
  rw [Finset.sum_comm (s := Finset.univ) (t := Finset.range T),
    Finset.sum_comm (s := Finset.univ) (t := Finset.range T)]
  linear_combination e

example : ∃ r b, (exE ℚ).forward true true true (some 3) 14 (fun t i => (t : ℚ) + (i : ℕ))
      (fun k t _ => (t : ℚ) + (k : ℕ)) (exWf ℚ).toInit = .ok r ∧
    (exE ℚ).backward true true true none 14 (exSt ℚ).b (exSt ℚ).n (exSt ℚ).s
      (fun t _ => (t : ℚ) + 2) (fun _ _ _ => 3) (exWf ℚ).toInit = .ok b ∧
    traceInner 14 (fun t _ => (t : ℚ) + 2) r.rcdP + ∑ k, traceInner 14 (fun _ _ => 3) (r.rcdV k)
      + r.out.inner (exE ℚ).userCells (exWf ℚ) =
    traceInner 14 (fun t i => (t : ℚ) + (i : ℕ)) b.gfP
      + ∑ k : Fin 2, traceInner 14 (fun t _ => (t : ℚ) + (k : ℕ)) (b.gfV k)
      + (exWf ℚ).inner (exE ℚ).userCells b.out :=
  C44_elastic_backward_is_adjoint (exE_wf ℚ) (exE_big ℚ) (by decide) true true true true true true
    (some 3) none 14 (by decide) (by decide) _ _ _ _ _ _ (exSt ℚ)

/-! ## C55 -/

/-- The cells of the (padded) model arrays. -/
def Cfg.modelCells (C : Cfg d np mp nv mv R) : Finset (Cell d) := box (fun _ => 0) C.n

theorem sum_modelCells {F : Fld d R} (hF : ∀ c, ¬C.Inner c → F c = 0) :
    ∑ c ∈ C.modelCells, F c = ∑ c ∈ C.S, F c := by
  symm
  refine Finset.sum_subset ?_ ?_
  · intro c hc
    rw [Cfg.mem_S] at hc
    simp only [Cfg.modelCells, mem_box]
    intro k
    have := hc k
    have hp := pad_pos C.acc
    omega
  · intro c _ hc
    exact hF c fun hi => hc (Cfg.mem_S.2 hi)

/-- Inner product of a model perturbation with model gradients. -/
def Grads.inner (S : Finset (Cell d)) (δ g : Grads d R) : R :=
  ∑ c ∈ S, δ.l c * g.l c + ∑ c ∈ S, δ.m c * g.m c + ∑ p, ∑ c ∈ S, δ.s p c * g.s p c
    + ∑ i, ∑ c ∈ S, δ.b i c * g.b i c

/-- The stored snapshots give the derivative with respect to the models. -/
theorem inner_gradSum (h : C.WF) (hr : C.ratio = 1) (fp : ℕ → Fin np → R)
    (fv : (k : Fin d) → ℕ → Fin (nv k) → R) (s l : Wavefields d R) (grP : ℕ → Fin mp → R)
    (grV : (k : Fin d) → ℕ → Fin (mv k) → R) (δ : Grads d R) (nt : ℕ) (hl : C.Good l) :
    δ.inner C.modelCells (gradSum C true true true
      ⟨fun j i => if true = true ∧ j < nt / C.ratio then
         (fun c => C.dt * C.divS (C.run fp fv s (j * C.ratio)) i c) else fun _ => 0,
       fun j i => if (true || true) = true ∧ j < nt / C.ratio then
           (fun c => C.dt * C.gradV (C.halfV (fun k => fv k (j * C.ratio))
             (C.run fp fv s (j * C.ratio))) i i c) else fun _ => 0,
       fun j p => if true = true ∧ j < nt / C.ratio then
           (fun c => C.dt *
             (C.gradV (C.halfV (fun k => fv k (j * C.ratio)) (C.run fp fv s (j * C.ratio))) p.1.1 p.1.2 c
             + C.gradV (C.halfV (fun k => fv k (j * C.ratio)) (C.run fp fv s (j * C.ratio)))
               p.1.2 p.1.1 c)) else fun _ => 0⟩ grP grV nt l nt) =
      ∑ t ∈ Finset.range nt, C.pertS δ (C.halfV (fun k => fv k t) (C.run fp fv s t))
          (C.bRun grP grV nt l (nt - 1 - t))
      + ∑ t ∈ Finset.range nt, C.pertV δ (C.run fp fv s t)
          (C.bHalfV (C.bRun grP grV nt l (nt - 1 - t))) := by
  have swap : ∀ (δ : Fld d R) (F : ℕ → Fld d R), (∀ t c, ¬C.Inner c → F t c = 0) →
      ∑ c ∈ C.modelCells, δ c * ∑ i ∈ Finset.range nt, F i c =
        ∑ t ∈ Finset.range nt, ∑ c ∈ C.S, δ c * F (nt - 1 - t) c := by
    intro δ F hF
    rw [sum_modelCells (F := fun c => δ c * _) (fun c hc => by simp [hF _ c hc])]
    simp only [Finset.mul_sum]
    rw [Finset.sum_comm, ← Finset.sum_range_reflect]
  simp only [Grads.inner, gradSum]
  rw [swap δ.l _ (fun t c hc => by simp [gradTerm, hc]),
    swap δ.m _ (fun t c hc => by simp [gradTerm, hc]),
    Finset.sum_congr rfl fun p _ => swap (δ.s p) _
      (fun t c hc => by simp [gradTerm, Cfg.InnerAt, hc]),
    Finset.sum_congr rfl fun i _ => swap (δ.b i) _
      (fun t c hc => by simp [gradTerm, Cfg.InnerAt, hc]),
    Finset.sum_comm (s := Finset.univ) (t := Finset.range nt),
    Finset.sum_comm (s := Finset.univ) (t := Finset.range nt)]
  simp only [← Finset.sum_add_distrib]
  refine Finset.sum_congr rfl fun t ht => ?_
  rw [Finset.mem_range] at ht
  have e1 : nt - 1 - (nt - 1 - t) = t := by omega
  simp only [gradTerm, hr, Nat.mod_one, beq_self_eq_true, Bool.and_self, Bool.or_self, e1, Nat.div_one,
    mul_one, Nat.cast_one, ht, and_self, if_true, true_and]
  set lt := C.bRun grP grV nt l (nt - 1 - t) with hlt
  set st := C.run fp fv s t
  set sv := C.halfV (fun k => fv k t) st
  simp only [Cfg.pertS, Cfg.pertV]
  congr 1
  · congr 1
    · simp only [dot]
      rw [Finset.sum_comm (s := Finset.univ) (t := C.S)]
      refine Finset.sum_congr rfl fun c hc => ?_
      rw [Cfg.mem_S] at hc
      simp only [hc, if_true, ← Finset.mul_sum, mul_add, add_mul, Finset.sum_add_distrib]
      congr 1
      · ring
      · simp only [Finset.mul_sum]
        exact Finset.sum_congr rfl fun i _ => by ring
    · refine Finset.sum_congr rfl fun p _ => Finset.sum_congr rfl fun c _ => ?_
      by_cases hc : C.InnerAt (sLoc p.1.1 p.1.2) c
      · simp only [hc, if_true]
        ring
      · have := (bRun_good h grP grV nt hl (nt - 1 - t)).sh p c hc
        rw [← hlt] at this
        simp [hc, this]
  · refine Finset.sum_congr rfl fun i _ => Finset.sum_congr rfl fun c _ => ?_
    by_cases hc : C.InnerAt (vLoc i) c
    · simp only [hc, if_true]
      ring
    · simp [hc, divS_out hc]

end

/-- **C55** With snapshots stored at every internal step (`ratio = 1`), the backward pass returns the
derivative of the objective `⟨grP, pressure data⟩ + ⟨grV, velocity data⟩ + ⟨g, final wavefields⟩` with
respect to all inputs at once: Lamé parameters, shear moduli at the shear stress points, buoyancies,
source amplitudes and initial wavefields.  Its inner product with any direction `(δ, δp, δv, δw)` is the
derivative along it. -/
theorem C55_elastic_gradients_exact {C : Cfg d np mp nv mv ℝ} (h : C.WF) (hb : C.Big)
    (hr : C.ratio = 1) (cb cb' : Option ℕ) (nt : ℕ) (hcf : 0 < nt → 0 < cb.getD nt)
    (hcf' : 0 < nt → 0 < cb'.getD nt) (fp δp : ℕ → Fin np → ℝ)
    (fv δv : (k : Fin d) → ℕ → Fin (nv k) → ℝ) (w δw g : Wavefields d ℝ) (grP : ℕ → Fin mp → ℝ)
    (grV : (k : Fin d) → ℕ → Fin (mv k) → ℝ) (δ : Grads d ℝ) :
    ∃ (r : ℝ → FResult d mp mv ℝ) (b : BResult d np nv ℝ),
      (∀ e : ℝ, ({ C with
          lam := fun c => C.lam c + e * δ.l c
          mu := fun c => C.mu c + e * δ.m c
          muS := fun p c => C.muS p c + e * δ.s p c
          B := fun i c => C.B i c + e * δ.b i c } : Cfg d np mp nv mv ℝ).forward true true true cb nt (fun t i => fp t i + e * δp t i)
          (fun k t i => fv k t i + e * δv k t i) (w.plus e δw).toInit = .ok (r e)) ∧
      C.backward true true true cb' nt (r 0).storeB (r 0).storeN (r 0).storeS grP grV g.toInit = .ok b ∧
      HasDerivAt (fun e => traceInner nt grP (r e).rcdP + ∑ k, traceInner nt (grV k) ((r e).rcdV k)
          + (r e).out.inner C.userCells g)
        (δ.inner C.modelCells b.gr
          + traceInner nt δp b.gfP + ∑ k, traceInner nt (δv k) (b.gfV k)
          + δw.inner C.userCells b.out) 0 := by
  have hr0 : 0 < C.ratio := by omega
  have hdiv : nt / C.ratio * C.ratio = nt := by rw [hr]; simp
  refine ⟨_, _, fun e => forward_eq (C := C.pert δ e) (pert_wf h δ e) true true true cb nt _ _ _ hr0
    (by change 0 < nt → 0 < cb.getD (nt / C.ratio); rw [hr]; simpa using hcf),
    backward_eq h hb true true true cb' nt ⟨_, _, _⟩ grP grV _ hr0 (by rw [hr]; simpa using hcf'), ?_⟩
  have hratio : ∀ e, (C.pert δ e).ratio = C.ratio := fun _ => rfl
  have hs : ∀ (e : ℝ) w, (C.pert δ e).prepare w = C.prepare w := fun _ _ => rfl
  have hup : ∀ (e : ℝ) w, (C.pert δ e).unpadAll w = C.unpadAll w := fun _ _ => rfl
  have hrp : ∀ e, (C.pert δ e).rcvP = C.rcvP := fun _ => rfl
  have hrv : ∀ e, (C.pert δ e).rcvV = C.rcvV := fun _ => rfl
  simp only [hratio, hdiv, hs, hup, hrp, hrv, traceInner_of_lt le_rfl]
  have hl := prepare_good (C := C) g.toInit
  have hdw := prepare_good (C := C) δw.toInit
  have hst := hasDeriv_prepare (C := C) w δw
  have hrun := fun n => hasDeriv_run (C := C) δ fp δp fv δv hst n
  have e0 : w.plus 0 δw = w := by simp [Wavefields.plus]
  simp only [e0] at hrun
  set R : ℝ → ℕ → Wavefields d ℝ := fun e => (C.pert δ e).run (fun t i => fp t i + e * δp t i)
    (fun k t i => fv k t i + e * δv k t i) (C.prepare (w.plus e δw).toInit) with hRdef
  set s := C.prepare w.toInit with hsdef
  have hR0 : R 0 = C.run fp fv s := by simp [hRdef, pert_zero, e0, hsdef]
  have hgood : ∀ e n, C.Good (R e n) := fun e n => by
    have gd := run_good (pert_wf h δ e) (fun t i => fp t i + e * δp t i)
      (fun k t i => fv k t i + e * δv k t i) (prepare_good (C := C.pert δ e) (w.plus e δw).toInit) n
    exact ⟨gd.v, gd.s, gd.sh, gd.mv, gd.ms, gd.mv_mid, gd.ms_mid⟩
  have hin : ∀ e, (C.unpadAll (R e nt)).inner C.userCells g = C.pair (R e nt) (C.prepare g.toInit) :=
    fun e => inner_out (hgood e nt) g
  have hfun : ∀ e, (∑ t ∈ Finset.range nt, ∑ i, grP t i * sample C.rcvP (R e t).prs i)
      + (∑ k, ∑ t ∈ Finset.range nt, ∑ i, grV k t i * sample (C.rcvV k) ((R e t).v k) i)
      + (C.unpadAll (R e nt)).inner C.userCells g =
      C.pair (R e nt) (C.prepare g.toInit)
        + (∑ t ∈ Finset.range nt, ∑ i, grP t i * sample C.rcvP (R e t).prs i)
        + ∑ t ∈ Finset.range nt, ∑ k, ∑ i, grV k t i * sample (C.rcvV k) ((R e t).v k) i := by
    intro e
    rw [hin, Finset.sum_comm (s := Finset.univ)]
    ring
  change HasDerivAt (fun e => (∑ t ∈ Finset.range nt, ∑ i, grP t i * sample C.rcvP (R e t).prs i)
      + (∑ k, ∑ t ∈ Finset.range nt, ∑ i, grV k t i * sample (C.rcvV k) ((R e t).v k) i)
      + (C.unpadAll (R e nt)).inner C.userCells g) _ 0
  simp only [hfun]
  have hdot : ∀ (x : ℝ → Fld d ℝ) (x' y : Fld d ℝ), (∀ c, HasDerivAt (fun e => x e c) (x' c) 0) →
      HasDerivAt (fun e => dot C.S (x e) y) (dot C.S x' y) 0 := by
    intro x x' y hx
    simp only [dot]
    exact HasDerivAt.fun_sum fun c _ => (hx c).mul_const _
  have hsmp : ∀ (m : ℕ) (loc : Fin m → Option (Cell d)) (i : Fin m) (x : ℝ → Fld d ℝ) (x' : Fld d ℝ),
      (∀ c, HasDerivAt (fun e => x e c) (x' c) 0) →
      HasDerivAt (fun e => sample loc (x e) i) (sample loc x' i) 0 := by
    intro m loc i x x' hx
    simp only [sample]
    cases loc i with
    | none => exact hasDerivAt_const _ _
    | some c => exact hx c
  have hd := (((((HasDerivAt.fun_sum (u := Finset.univ) fun k _ =>
        hdot _ _ ((C.prepare g.toInit).v k) ((hrun nt).v k)).add
      (HasDerivAt.fun_sum (u := Finset.univ) fun k _ =>
        hdot _ _ ((C.prepare g.toInit).s k) ((hrun nt).s k))).add
      (HasDerivAt.fun_sum (u := Finset.univ) fun k _ =>
        hdot _ _ ((C.prepare g.toInit).sh k) ((hrun nt).sh k))).add
      (HasDerivAt.fun_sum (u := Finset.univ) fun i _ =>
        HasDerivAt.fun_sum (u := Finset.univ) fun j _ =>
        hdot _ _ ((C.prepare g.toInit).mv i j) ((hrun nt).mv i j))).add
      (HasDerivAt.fun_sum (u := Finset.univ) fun i _ =>
        HasDerivAt.fun_sum (u := Finset.univ) fun j _ =>
        hdot _ _ ((C.prepare g.toInit).ms i j) ((hrun nt).ms i j))).add
    (HasDerivAt.fun_sum (u := Finset.range nt) fun t _ =>
      HasDerivAt.fun_sum (u := Finset.univ) fun i _ =>
        HasDerivAt.const_mul (grP t i) (hsmp _ C.rcvP i (fun e => (R e t).prs) _
          (fun c => HasDerivAt.fun_sum (u := Finset.univ) fun k _ => (hrun t).s k c)))
  have hd := hd.add (HasDerivAt.fun_sum (u := Finset.range nt) fun t _ =>
      HasDerivAt.fun_sum (u := Finset.univ) fun k _ =>
      HasDerivAt.fun_sum (u := Finset.univ) fun i _ =>
        HasDerivAt.const_mul (grV k t i) (hsmp _ (C.rcvV k) i _ _ ((hrun t).v k)))
  refine HasDerivAt.congr_deriv hd ?_
  have e := pair_tRun h s hdw hl fp δp fv δv δ grP grV nt
  refine Eq.trans e ?_
  rw [inner_start δw (bRun_good h grP grV nt hl nt),
    Finset.sum_comm (s := Finset.range nt) (t := Finset.univ) (f := fun t k => ∑ i, δv k t i * _)]
  have hG := inner_gradSum h hr fp fv s (C.prepare g.toInit) grP grV δ nt hl
  simp only [pert_zero, e0, zero_mul, add_zero] at hG ⊢
  rw [hG]
  ring

/-- The hypotheses of C55 hold for the example with ratio 1. -/
example : ∃ (r : ℝ → FResult 2 1 (fun _ => 1) ℝ) (b : BResult 2 2 (fun _ => 1) ℝ),
    ({ exE ℝ with ratio := 1 } : Cfg 2 2 1 _ _ ℝ).backward true true true none 5 (r 0).storeB
      (r 0).storeN (r 0).storeS (fun _ _ => 1) (fun _ _ _ => 2) (exWf ℝ).toInit = .ok b := by
  have hw : ({ exE ℝ with ratio := 1 } : Cfg 2 2 1 _ _ ℝ).WF := { exE_wf ℝ with }
  obtain ⟨r, b, -, h2, -⟩ := C55_elastic_gradients_exact hw (exE_big ℝ) rfl none none 5 (by decide)
    (by decide) (fun t _ => (t : ℝ)) (fun _ _ => 1) (fun _ t _ => (t : ℝ)) (fun _ _ _ => 2) (exWf ℝ)
    (exWf ℝ) (exWf ℝ) (fun _ _ => 1) (fun _ _ _ => 2)
    ⟨fun c => c 0, fun c => c 1, fun _ _ => 1, fun k c => c k⟩
  exact ⟨r, b, h2⟩

section
variable {R : Type*} [Field R] {C : Cfg d np mp nv mv R}

/-! ## C56 -/

/-- **C56** All outputs of the elastic forward pass and all gradients of the backward pass are the same
with any callback frequency as without callbacks. -/
theorem C56_elastic_callback_schedule (h : C.WF) (hb : C.Big) (hr : 0 < C.ratio) (gl gm gb : Bool)
    (cf nt : ℕ) (hcf : 0 < cf) (hnt : nt = 0 ∨ C.ratio ≤ nt) (fp : ℕ → Fin np → R)
    (fv : (k : Fin d) → ℕ → Fin (nv k) → R) (w : Init d R) (st : Stores d R) (grP : ℕ → Fin mp → R)
    (grV : (k : Fin d) → ℕ → Fin (mv k) → R) (g : Init d R) :
    ∃ r r' b b', C.forward gl gm gb none nt fp fv w = .ok r ∧
      C.forward gl gm gb (some cf) nt fp fv w = .ok r' ∧
      C.backward gl gm gb none nt st.b st.n st.s grP grV g = .ok b ∧
      C.backward gl gm gb (some cf) nt st.b st.n st.s grP grV g = .ok b' ∧
      { r' with events := [] } = r ∧ { b' with events := [] } = b := by
  have hpos : 0 < nt → 0 < (none : Option ℕ).getD (nt / C.ratio) :=
    fun hp => Nat.div_pos (by omega) hr
  exact ⟨_, _, _, _, forward_eq h gl gm gb none nt fp fv w hr hpos,
    forward_eq h gl gm gb (some cf) nt fp fv w hr fun _ => hcf,
    backward_eq h hb gl gm gb none nt st grP grV g hr hpos,
    backward_eq h hb gl gm gb (some cf) nt st grP grV g hr fun _ => hcf, rfl, rfl⟩

/-- **C56** The forward callback runs at steps 0, `cf`, `2 cf`, ... below the number of outer steps and
sees the wavefields which a forward pass of only that many steps returns. -/
theorem C56_elastic_forward_events (h : C.WF) (hr : 0 < C.ratio) (gl gm gb : Bool) (cf nt : ℕ)
    (hcf : 0 < cf) (fp : ℕ → Fin np → R) (fv : (k : Fin d) → ℕ → Fin (nv k) → R) (w : Init d R) :
    ∃ r, C.forward gl gm gb (some cf) nt fp fv w = .ok r ∧
      r.events.map Event.step = (List.range ((nt / C.ratio + cf - 1) / cf)).map (· * cf) ∧
      ∀ e ∈ r.events, ∃ r', C.forward gl gm gb none (e.step * C.ratio) fp fv w = .ok r' ∧
        C.unpadAll e.wf = r'.out := by
  refine ⟨_, forward_eq h gl gm gb (some cf) nt fp fv w hr fun _ => hcf, ?_, ?_⟩
  · simp only [List.map_map]
    rfl
  · intro e he
    simp only [List.mem_map, List.mem_range] at he
    obtain ⟨i, -, rfl⟩ := he
    have hdiv : i * cf * C.ratio / C.ratio = i * cf := Nat.mul_div_cancel _ hr
    refine ⟨_, forward_eq h gl gm gb none _ fp fv w hr ?_, ?_⟩
    · dsimp only
      rw [hdiv]
      intro hp
      exact Nat.pos_of_mul_pos_right hp
    · simp only [hdiv]

theorem bRun_shift (grP : ℕ → Fin mp → R) (grV : (k : Fin d) → ℕ → Fin (mv k) → R) (j T : ℕ)
    (l : Wavefields d R) (n : ℕ) (hn : n ≤ T) :
    C.bRun (fun t => grP (j + t)) (fun k t => grV k (j + t)) T l n = C.bRun grP grV (j + T) l n := by
  induction n with
  | zero => rfl
  | succ n ih =>
      have e : j + (T - 1 - n) = j + T - 1 - n := by omega
      rw [Cfg.bRun, Cfg.bRun, ih (by omega)]
      simp only [e]

/-- **C56** With callback frequency `cf` and `N` outer steps, the backward callback runs at steps
`N - cf`, `N - 2 cf`, ... in decreasing order, the last being step 0, once each.  At step `e.step`
it sees the adjoint wavefields and the gradients of the models which a backward pass over only
the steps from `e.step` on returns. -/
theorem C56_elastic_backward_events (h : C.WF) (hb : C.Big) (hr : 0 < C.ratio) (gl gm gb : Bool)
    (cf nt : ℕ) (hcf : 0 < cf) (st : Stores d R)
    (grP : ℕ → Fin mp → R) (grV : (k : Fin d) → ℕ → Fin (mv k) → R) (g : Init d R) :
    ∃ b, C.backward gl gm gb (some cf) nt st.b st.n st.s grP grV g = .ok b ∧
      (b.events.map BEvent.step).Pairwise (· > ·) ∧
      (∀ j, j ∈ b.events.map BEvent.step ↔ j < nt / C.ratio ∧ (j = 0 ∨ cf ∣ nt / C.ratio - j)) ∧
      ∀ e ∈ b.events, ∃ b', C.backward gl gm gb none ((nt / C.ratio - e.step) * C.ratio)
          (fun j => st.b (e.step + j)) (fun j => st.n (e.step + j)) (fun j => st.s (e.step + j))
          (fun t => grP (e.step * C.ratio + t)) (fun k t => grV k (e.step * C.ratio + t)) g = .ok b' ∧
        e.gr = b'.gr ∧ C.unpadAll e.wf = b'.out := by
  refine ⟨_, backward_eq h hb gl gm gb (some cf) nt st grP grV g hr fun _ => hcf, ?_, ?_, ?_⟩
  · simp only [List.map_map]
    exact Driver.bSteps_pairwise _ _
  · intro j
    simp only [List.map_map]
    exact Driver.mem_bSteps hcf j
  · set N := nt / C.ratio with hN
    intro e he
    simp only [List.mem_map, List.mem_range] at he
    obtain ⟨i, hi, rfl⟩ := he
    set n := min N ((i + 1) * cf) with hn
    have hnN : n ≤ N := Nat.min_le_left _ _
    have hstep : (bEventAt C gl gm gb st grP grV N (C.prepare g) n).step = N - n := rfl
    rw [hstep]
    have e1 : N - (N - n) = n := Nat.sub_sub_self hnN
    rw [e1]
    refine ⟨_, backward_eq h hb gl gm gb none (n * C.ratio) ⟨_, _, _⟩ _ _ g hr ?_, ?_⟩
    · intro hp
      rw [Option.getD_none, Nat.mul_div_cancel _ hr]
      exact Nat.pos_of_mul_pos_right hp
    · have hT : (N - n) * C.ratio + n * C.ratio = N * C.ratio := by
        rw [← Nat.add_mul, Nat.sub_add_cancel hnN]
      have hbr : ∀ m ≤ n * C.ratio, C.bRun (fun t => grP ((N - n) * C.ratio + t))
          (fun k t => grV k ((N - n) * C.ratio + t)) (n * C.ratio)
          (C.prepare g) m = C.bRun grP grV (N * C.ratio) (C.prepare g) m := by
        intro m hm
        rw [bRun_shift grP grV _ _ _ _ hm, hT]
      simp only [Nat.mul_div_cancel _ hr]
      rw [hbr _ le_rfl]
      refine ⟨?_, rfl⟩
      have ht : ∀ m < n * C.ratio, gradTerm C gl gm gb st (N * C.ratio - 1 - m)
            (C.bRun grP grV (N * C.ratio) (C.prepare g) m) =
          gradTerm C gl gm gb ⟨fun j => st.b (N - n + j), fun j => st.n (N - n + j),
            fun j => st.s (N - n + j)⟩ (n * C.ratio - 1 - m)
            (C.bRun (fun t => grP ((N - n) * C.ratio + t))
              (fun k t => grV k ((N - n) * C.ratio + t)) (n * C.ratio) (C.prepare g) m) := by
        intro m hm
        have e2 : N * C.ratio - 1 - m = (n * C.ratio - 1 - m) + (N - n) * C.ratio := by omega
        rw [hbr m hm.le]
        simp only [gradTerm]
        rw [e2, Nat.add_mul_mod_self_right, Nat.add_mul_div_right _ _ hr, Nat.add_comm _ (N - n)]
      simp only [bEventAt]
      ext1
      · funext c
        exact Finset.sum_congr rfl fun m hm => congrArg (fun g => Grads.l g c) (ht m (Finset.mem_range.1 hm))
      · funext c
        exact Finset.sum_congr rfl fun m hm => congrArg (fun g => Grads.m g c) (ht m (Finset.mem_range.1 hm))
      · funext p c
        exact Finset.sum_congr rfl fun m hm => congrArg (fun g => Grads.s g p c) (ht m (Finset.mem_range.1 hm))
      · funext i c
        exact Finset.sum_congr rfl fun m hm => congrArg (fun g => Grads.b g i c) (ht m (Finset.mem_range.1 hm))

example : ∃ b, (exE ℚ).backward true true true (some 3) 14 (exSt ℚ).b (exSt ℚ).n (exSt ℚ).s
      (fun t _ => (t : ℚ) + 2) (fun _ _ _ => 3) (exWf ℚ).toInit = .ok b ∧
    ∀ j, j ∈ b.events.map BEvent.step ↔ j < 7 ∧ (j = 0 ∨ 3 ∣ 7 - j) := by
  obtain ⟨b, h1, -, h2, -⟩ := C56_elastic_backward_events (exE_wf ℚ) (exE_big ℚ) (by decide) true
    true true 3 14 (by decide) (exSt ℚ) (fun t _ => (t : ℚ) + 2) (fun _ _ _ => 3) (exWf ℚ).toInit
  exact ⟨b, h1, h2⟩

end

end Dw.Elastic
