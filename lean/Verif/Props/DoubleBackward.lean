import Verif.Born.Double
import Verif.Props.Born
import Verif.Props.ScalarBackward
import Verif.Props.ScalarForward

/-!
# C64: double backpropagation through the scalar propagator

`doubleBackward C vg fg nt f w gr g ggv ggf ggw` is the model of the backward pass of the backward
pass.  `f`, `w` are the source amplitudes and initial wavefields given to the forward pass, `gr`, `g`
the gradients with respect to its results, and `ggv`, `ggf`, `ggw` the gradients with respect to the
velocity gradient, the amplitude gradient and the wavefield gradients of the backward pass.
-/

namespace Dw.Born

open Dw.Scalar

variable {d ns nr : ℕ}

section
variable {R : Type*} [Field R] {C : Cfg d ns nr R}

theorem dbCfg_wf (h : C.WF) (ggv : Option (Fld d R)) : (dbCfg C ggv).WF :=
  ⟨⟨h.w0_nonneg, h.w1_nonneg, h.size, h.a_mid, h.b_mid, h.db_mid, h.src_in, fun i => i.elim0⟩, h.rcv_in⟩

theorem scBRun_dbCfg (ggv : Option (Fld d R)) (gr : ℕ → Fin nr → R) (T : ℕ) (μ : St d R) (n : ℕ) :
    scBRun (dbCfg C ggv) gr T μ n = C.bRun gr T μ n := by
  induction n with
  | zero => rfl
  | succ n ih => rw [scBRun, Cfg.bRun, ih]; rfl

/-- What the scattered data and wavefields are paired with `gr` and `g` (0 if the propagation is
rejected). -/
def scPair {nq : ℕ} (B : BCfg d ns 0 nq R) (nt : ℕ) (f fsc : ℕ → Fin ns → R)
    (w wsc : Wavefields d R) (gr : ℕ → Fin nq → R) (g : Wavefields d R) : R :=
  match B.forward true false none nt f fsc w.toInit wsc.toInit with
  | .ok r => traceInner nt gr r.rcdsc + r.outsc.inner B.base.userCells g
  | .error _ => 0

/-- The gradients of the backward pass, paired with `ggv`, `ggf` and `ggw`, are the scattered data
and wavefields paired with its arguments. -/
theorem pair_backward (h : C.WF) (hr : C.ratio = 1) (cb cb' : Option ℕ) (nt : ℕ)
    (hcf : 0 < nt → 0 < cb.getD nt) (hcf' : 0 < nt → 0 < cb'.getD nt) (f : ℕ → Fin ns → R)
    (w : Wavefields d R) (gr : ℕ → Fin nr → R) (g : Wavefields d R) (ggv : Option (Fld d R))
    (ggf : ℕ → Fin ns → R) (ggw : Wavefields d R) :
    ∃ r b, C.forward true cb nt f w.toInit = .ok r ∧
      C.backward true cb' nt r.store gr g.toInit = .ok b ∧
      ∑ c ∈ C.modelCells, ggv.getD (fun _ => 0) c * b.gv c + traceInner nt ggf b.gf
          + ggw.inner C.userCells b.out =
        scPair (dbCfg C ggv) nt f ggf w ggw gr g := by
  have hr0 : 0 < C.ratio := by omega
  have hdiv : nt / C.ratio = nt := by rw [hr]; simp
  have hdm : nt / C.ratio * C.ratio = nt := by rw [hr]; simp
  have hB := dbCfg_wf h ggv
  refine ⟨_, _, C.forward_eq h true cb nt f _ hr0 (by rwa [hdiv]),
    C.backward_eq h true cb' nt _ gr _ hr0 (by rwa [hdiv]), ?_⟩
  have fe := forward_eq hB.base true false none nt f ggf w.toInit ggw.toInit hr0
    (by change 0 < nt → 0 < nt / C.ratio; rw [hdiv]; exact id)
  have hr' : (dbCfg C ggv).base.ratio = C.ratio := rfl
  simp only [scPair, fe, hr', hdm]
  have key := scatter_gradient hB hr nt f ggf ((dbCfg C ggv).base.start w.toInit) ggw g gr
    (ggv.getD fun _ => 0)
    (fun j => lapIn (dbCfg C ggv).base ((dbCfg C ggv).base.run f 0 ((dbCfg C ggv).base.start w.toInit) j))
    (fun _ _ => rfl)
  refine Eq.trans ?_ key.symm
  simp only [scBRun_dbCfg]
  have hgv : ∀ c, ∑ i ∈ Finset.range nt, gsAt (dbCfg C ggv) true (fun j => lapIn (dbCfg C ggv).base
        ((dbCfg C ggv).base.run f 0 ((dbCfg C ggv).base.start w.toInit) j)) gr nt
        ((dbCfg C ggv).base.bStart g.toInit) i c =
      ∑ i ∈ Finset.range nt, C.bGrad true (fun j => if true = true ∧ j < nt / C.ratio then
          C.snap (C.run f 0 (C.start w.toInit) (j * C.ratio)) else fun _ => 0) gr nt
          (C.bStart g.toInit) i c := by
    intro c
    refine Finset.sum_congr rfl fun i hi => ?_
    rw [Finset.mem_range] at hi
    have hrun : (dbCfg C ggv).base.run f 0 ((dbCfg C ggv).base.start w.toInit) (nt - 1 - i) =
        C.run f 0 (C.start w.toInit) (nt - 1 - i) := run_rcv C Fin.elim0 f 0 _ _
    have hst : (dbCfg C ggv).base.bStart g.toInit = C.bStart g.toInit := rfl
    simp only [gsAt, Cfg.bGrad, hr', hr, Nat.mod_one, Nat.div_one, mul_one, Nat.cast_one, scBRun_dbCfg,
      hrun, hst, show nt - 1 - i < nt by omega, and_self, if_true]
    have hi : (dbCfg C ggv).base.Inner c ↔ C.Inner c := Iff.rfl
    simp only [hi]
    by_cases hc : C.Inner c
    · simp only [hc, and_true]
      simp only [lapIn, Cfg.snap, hi, hc, if_true]
      have hl : (dbCfg C ggv).base.lap = C.lap := rfl
      have hv : (dbCfg C ggv).base.v = C.v := rfl
      have ht : (dbCfg C ggv).base.dt = C.dt := rfl
      rw [hl, hv, ht]
      congr 1
      ring
    · simp [hc]
  have e : ∀ σ : Fld d R, ∑ c ∈ (dbCfg C ggv).base.modelCells, σ c * ∑ i ∈ Finset.range nt,
        gsAt (dbCfg C ggv) true (fun j => lapIn (dbCfg C ggv).base
        ((dbCfg C ggv).base.run f 0 ((dbCfg C ggv).base.start w.toInit) j)) gr nt
        ((dbCfg C ggv).base.bStart g.toInit) i c =
      ∑ c ∈ C.modelCells, σ c * ∑ i ∈ Finset.range nt, C.bGrad true
        (fun j => if true = true ∧ j < nt / C.ratio then
          C.snap (C.run f 0 (C.start w.toInit) (j * C.ratio)) else fun _ => 0) gr nt
          (C.bStart g.toInit) i c := by
    intro σ
    exact Finset.sum_congr rfl fun c _ => by rw [hgv c]
  rw [e]
  have hsrc : (dbCfg C ggv).base.src = C.src := rfl
  have hst : (dbCfg C ggv).base.bStart g.toInit = C.bStart g.toInit := rfl
  rw [hsrc, hst, add_assoc, add_comm]
  simp only [true_and]
  rfl

/-- Wavefields that are zero. -/
def zeroW (d : ℕ) (R : Type*) [Field R] : Wavefields d R :=
  ⟨fun _ => 0, fun _ => 0, fun _ _ => 0, fun _ _ => 0⟩

theorem inner_zeroW (S : Finset (Cell d)) (w : Wavefields d R) : w.inner S (zeroW d R) = 0 := by
  simp [Wavefields.inner, zeroW]

theorem zeroW_inner (S : Finset (Cell d)) (w : Wavefields d R) : (zeroW d R).inner S w = 0 := by
  simp [Wavefields.inner, zeroW]

theorem inner_comm (S : Finset (Cell d)) (w w' : Wavefields d R) : w.inner S w' = w'.inner S w := by
  simp only [Wavefields.inner, mul_comm]

/-- Empty initial wavefields are zero. -/
theorem backward_empty {nq : ℕ} (B : BCfg d ns nr nq R) (gv gs : Bool) (cb : Option ℕ) (nt : ℕ)
    (w wsc : ℕ → Fld d R) (gr : ℕ → Fin nr → R) (grsc : ℕ → Fin nq → R) (gsc : Init d R) :
    B.backward gv gs cb nt w wsc gr grsc ⟨none, none, fun _ => none, fun _ => none⟩ gsc =
      B.backward gv gs cb nt w wsc gr grsc (zeroW d R).toInit gsc := by
  have hz : B.base.createOrPad (some fun _ => 0) = fun _ => 0 := by
    funext c; simp [Cfg.createOrPad]
  have e : B.bInit ⟨none, none, fun _ => none, fun _ => none⟩ gsc = B.bInit (zeroW d R).toInit gsc := by
    have : B.base.initBwdBufs ⟨none, none, fun _ => none, fun _ => none⟩ =
        B.base.initBwdBufs (zeroW d R).toInit := by
      simp only [Cfg.initBwdBufs, zeroW, Wavefields.toInit, hz]
      rfl
    simp only [BCfg.bInit, this]
  simp only [BCfg.backward, e]

/-- The scattered data and wavefields as transposes of the Born backward pass. -/
theorem scPair_eq {nq : ℕ} {B : BCfg d ns 0 nq R} (h : B.WF) (hr : B.base.ratio = 1) (nt : ℕ)
    (gr : ℕ → Fin nq → R) (g : Wavefields d R) (snaps snapsSc : ℕ → Fld d R) :
    ∃ b, B.backward true false none nt snaps snapsSc (fun _ => Fin.elim0) gr (zeroW d R).toInit g.toInit
        = .ok b ∧
      ∀ f fsc w wsc, scPair B nt f fsc w wsc gr g = traceInner nt f b.gf + traceInner nt fsc b.gfsc
        + w.inner B.base.userCells b.out + wsc.inner B.base.userCells b.outsc := by
  have hr0 : 0 < B.base.ratio := by omega
  have hcf : 0 < nt → 0 < (none : Option ℕ).getD (nt / B.base.ratio) := by
    rw [hr]; simp
  refine ⟨_, backward_eq h true false none nt snaps snapsSc _ gr _ _ hr0 hcf, ?_⟩
  intro f fsc w wsc
  obtain ⟨r, b, h1, h2, h3⟩ := C47_born_backward_is_adjoint h hr0 true false true false none none nt
    hcf hcf f fsc w wsc (fun _ => Fin.elim0) gr (zeroW d R) g snaps snapsSc
  rw [backward_eq h true false none nt snaps snapsSc _ gr _ _ hr0 hcf] at h2
  obtain rfl := Except.ok.inj h2
  simp only [scPair, h1]
  refine Eq.trans ?_ h3
  rw [inner_zeroW]
  simp [traceInner]

end

section
variable {C : Cfg d ns nr ℝ}

theorem plus_inner (S : Finset (Cell d)) (w w' x : Wavefields d ℝ) (e : ℝ) :
    (plus w e w').inner S x = w.inner S x + e * w'.inner S x := by
  simp only [Wavefields.inner, plus, add_mul, Finset.sum_add_distrib, mul_assoc, ← Finset.mul_sum]
  ring

theorem inner_plus (S : Finset (Cell d)) (w w' x : Wavefields d ℝ) (e : ℝ) :
    x.inner S (plus w e w') = x.inner S w + e * x.inner S w' := by
  rw [inner_comm, plus_inner, inner_comm S w, inner_comm S w']

theorem traceInner_plus {m : ℕ} (nt : ℕ) (x x' y : ℕ → Fin m → ℝ) (e : ℝ) :
    traceInner nt (fun t i => x t i + e * x' t i) y = traceInner nt x y + e * traceInner nt x' y := by
  simp only [traceInner, add_mul, Finset.sum_add_distrib, mul_assoc, ← Finset.mul_sum]

theorem traceInner_zero {m : ℕ} (nt : ℕ) (y : ℕ → Fin m → ℝ) :
    traceInner nt (fun _ _ => 0) y = 0 := by
  simp [traceInner]

theorem scPair_split {nq : ℕ} {B : BCfg d ns 0 nq ℝ} (h : B.WF) (hr : B.base.ratio = 1) (nt : ℕ)
    (f δf fsc : ℕ → Fin ns → ℝ) (w δw wsc : Wavefields d ℝ) (gr δgr : ℕ → Fin nq → ℝ)
    (g δg : Wavefields d ℝ) (e : ℝ) :
    scPair B nt (fun t i => f t i + e * δf t i) fsc (plus w e δw) wsc
        (fun t i => gr t i + e * δgr t i) (plus g e δg) =
      scPair B nt f fsc w wsc gr g + e * (scPair B nt δf (fun _ _ => 0) δw (zeroW d ℝ) gr g
        + scPair B nt f fsc w wsc δgr δg
        + e * scPair B nt δf (fun _ _ => 0) δw (zeroW d ℝ) δgr δg) := by
  have lin : ∀ (gr : ℕ → Fin nq → ℝ) (g : Wavefields d ℝ),
      scPair B nt (fun t i => f t i + e * δf t i) fsc (plus w e δw) wsc gr g =
        scPair B nt f fsc w wsc gr g + e * scPair B nt δf (fun _ _ => 0) δw (zeroW d ℝ) gr g := by
    intro gr g
    obtain ⟨b, -, hb⟩ := scPair_eq h hr nt gr g (fun _ _ => 0) (fun _ _ => 0)
    rw [hb, hb, hb, traceInner_plus, plus_inner, traceInner_zero, zeroW_inner]
    ring
  have lin2 : ∀ f fsc w wsc, scPair B nt f fsc w wsc (fun t i => gr t i + e * δgr t i) (plus g e δg) =
      scPair B nt f fsc w wsc gr g + e * scPair B nt f fsc w wsc δgr δg := by
    intro f fsc w wsc
    unfold scPair
    cases B.forward true false none nt f fsc w.toInit wsc.toInit with
    | ok r =>
        simp only
        rw [traceInner_plus, inner_plus]
        ring
    | error _ => simp
  rw [lin2, lin, lin]
  ring

/-- Derivative of the scattered data along a change of the velocity. -/
theorem scPair_deriv (h : C.WF) (hr : C.ratio = 1) (nt : ℕ) (f fsc : ℕ → Fin ns → ℝ)
    (w wsc : Wavefields d ℝ) (gr : ℕ → Fin nr → ℝ) (g : Wavefields d ℝ) (ggv : Option (Fld d ℝ))
    (δ : Fld d ℝ) :
    ∃ r b, (dbCfg C ggv).forward true false none nt f fsc w.toInit wsc.toInit = .ok r ∧
      (dbCfg C ggv).backward true false none nt r.w r.wsc (fun _ => Fin.elim0) gr (zeroW d ℝ).toInit
        g.toInit = .ok b ∧
      HasDerivAt (fun e : ℝ => scPair (dbCfg { C with v := fun c => C.v c + e * δ c } ggv) nt f fsc w wsc
        gr g) (∑ c ∈ C.modelCells, δ c * b.gv c) 0 := by
  obtain ⟨r, b, h1, h2, h3⟩ := C48_born_velocity_gradient (dbCfg_wf h ggv) hr false false none none nt
    id id f fsc w wsc (zeroW d ℝ) g (fun _ => Fin.elim0) gr δ
  have h0 := h1 0
  simp only [zero_mul, add_zero] at h0
  refine ⟨r 0, b, h0, h2, ?_⟩
  refine h3.congr_of_eventuallyEq (Filter.Eventually.of_forall fun e => ?_)
  have h1e : (dbCfg { C with v := fun c => C.v c + e * δ c } ggv).forward true false none nt f fsc
    w.toInit wsc.toInit = .ok (r e) := h1 e
  simp only [scPair, h1e]
  rw [inner_zeroW]
  simp only [traceInner, Finset.univ_eq_empty, Finset.sum_empty, Finset.sum_const_zero, zero_add,
    add_zero]
  rfl

/-- **C64** Double backpropagation returns the derivatives of the backward pass.  Let the forward pass
be run with velocity `v + e δv`, source amplitudes `f + e δf` and initial wavefields `w + e δw`, and
its backward pass with `gr + e δgr` and `g + e δg`, and pair the three gradients which the backward
pass returns with `ggv`, `ggf` and `ggw`.  The derivative of that number with respect to `e` at `0` is
the sum of the pairings of `δgr`, `δv`, `δf`, `δg` and `δw` with what double backpropagation returns,
for snapshots at every step (`ratio = 1`).  In particular, with `δv` the only direction, the returned
`v` is the Hessian of the objective, applied to `ggv`. -/
theorem C64_double_backward (h : C.WF) (hr : C.ratio = 1) (cb cb' : Option ℕ) (nt : ℕ)
    (hcf : 0 < nt → 0 < cb.getD nt) (hcf' : 0 < nt → 0 < cb'.getD nt)
    (f δf : ℕ → Fin ns → ℝ) (w δw : Wavefields d ℝ) (gr δgr : ℕ → Fin nr → ℝ)
    (g δg : Wavefields d ℝ) (δv : Fld d ℝ) (ggv : Option (Fld d ℝ)) (ggf : Option (ℕ → Fin ns → ℝ))
    (ggw : Wavefields d ℝ) :
    ∃ (r : ℝ → FwdResult d nr ℝ) (b : ℝ → BwdResult d ns ℝ) (q : DbResult d ns nr ℝ) (qv : Fld d ℝ)
      (qf : ℕ → Fin ns → ℝ),
      (∀ e : ℝ, ({ C with v := fun c => C.v c + e * δv c } : Cfg d ns nr ℝ).forward true cb nt
        (fun t i => f t i + e * δf t i) (plus w e δw).toInit = .ok (r e)) ∧
      (∀ e : ℝ, ({ C with v := fun c => C.v c + e * δv c } : Cfg d ns nr ℝ).backward true cb' nt
        (r e).store (fun t i => gr t i + e * δgr t i) (plus g e δg).toInit = .ok (b e)) ∧
      doubleBackward C true true nt f w.toInit gr g.toInit ggv ggf ggw.toInit = .ok q ∧
      q.v = some qv ∧ q.f = some qf ∧
      HasDerivAt (fun e => ∑ c ∈ C.modelCells, ggv.getD (fun _ => 0) c * (b e).gv c
          + traceInner nt (ggf.getD fun _ _ => 0) (b e).gf + ggw.inner C.userCells (b e).out)
        (traceInner nt δgr q.gr + ∑ c ∈ C.modelCells, δv c * qv c + traceInner nt δf qf
          + δg.inner C.userCells q.g + δw.inner C.userCells q.w) 0 := by
  have hr0 : 0 < C.ratio := by omega
  have hw : ∀ e : ℝ, ({ C with v := fun c => C.v c + e * δv c } : Cfg d ns nr ℝ).WF := fun e =>
    ⟨h.w0_nonneg, h.w1_nonneg, h.size, h.a_mid, h.b_mid, h.db_mid, h.src_in, h.rcv_in⟩
  have hp := fun e : ℝ => pair_backward (hw e) hr cb cb' nt hcf hcf' (fun t i => f t i + e * δf t i)
    (plus w e δw) (fun t i => gr t i + e * δgr t i) (plus g e δg) ggv (ggf.getD fun _ _ => 0) ggw
  choose r b hb1 hb2 hb3 using hp
  obtain ⟨rr, bb, e1, e2, e3⟩ := doubleBackward_eq (C := C) true true nt f w.toInit gr g.toInit ggv ggf
    ggw.toInit hr0 (by rw [hr]; exact one_dvd nt)
  rw [backward_empty] at e2
  refine ⟨r, b, _, _, _, hb1, hb2, e3, rfl, rfl, ?_⟩
  have hphi : (fun e => ∑ c ∈ C.modelCells, ggv.getD (fun _ => 0) c * (b e).gv c
          + traceInner nt (ggf.getD fun _ _ => 0) (b e).gf + ggw.inner C.userCells (b e).out) =
      fun e => scPair (dbCfg { C with v := fun c => C.v c + e * δv c } ggv) nt f
          (ggf.getD fun _ _ => 0) w ggw gr g
        + e * (scPair (dbCfg { C with v := fun c => C.v c + e * δv c } ggv) nt δf (fun _ _ => 0) δw
            (zeroW d ℝ) gr g
          + scPair (dbCfg { C with v := fun c => C.v c + e * δv c } ggv) nt f
            (ggf.getD fun _ _ => 0) w ggw δgr δg
          + e * scPair (dbCfg { C with v := fun c => C.v c + e * δv c } ggv) nt δf (fun _ _ => 0) δw
            (zeroW d ℝ) δgr δg) := by
    funext e
    exact (hb3 e).trans (scPair_split (dbCfg_wf (hw e) ggv) hr nt _ _ _ _ _ _ _ _ _ _ _)
  rw [hphi]
  obtain ⟨rA, bA, a1, a2, a3⟩ := scPair_deriv h hr nt f (ggf.getD fun _ _ => 0) w ggw gr g ggv δv
  obtain ⟨_, _, -, -, d1⟩ := scPair_deriv h hr nt δf (fun _ _ => 0) δw (zeroW d ℝ) gr g ggv δv
  obtain ⟨_, _, -, -, d2⟩ := scPair_deriv h hr nt f (ggf.getD fun _ _ => 0) w ggw δgr δg ggv δv
  obtain ⟨_, _, -, -, d3⟩ := scPair_deriv h hr nt δf (fun _ _ => 0) δw (zeroW d ℝ) δgr δg ggv δv
  have hd := a3.add ((hasDerivAt_id (0 : ℝ)).mul ((d1.add d2).add ((hasDerivAt_id (0 : ℝ)).mul d3)))
  refine hd.congr_deriv ?_
  obtain rfl := Except.ok.inj (e1.symm.trans a1)
  obtain rfl := Except.ok.inj (e2.symm.trans a2)
  obtain ⟨b', c1, c2⟩ := scPair_eq (dbCfg_wf h ggv) hr nt gr g rr.w rr.wsc
  obtain rfl := Except.ok.inj (e2.symm.trans c1)
  have k1 := c2 δf (fun _ _ => 0) δw (zeroW d ℝ)
  rw [traceInner_zero, zeroW_inner] at k1
  have k2 : scPair (dbCfg C ggv) nt f (ggf.getD fun _ _ => 0) w ggw δgr δg =
      traceInner nt δgr rr.rcdsc + rr.outsc.inner C.userCells δg := by
    simp only [scPair, e1]
    rfl
  have hu : (dbCfg C ggv).base.userCells = C.userCells := rfl
  simp only [Pi.add_apply, Pi.mul_apply, id_eq, zero_mul, one_mul, add_zero, k1, k2, if_true, hu]
  rw [inner_comm _ rr.outsc]
  ring

end

/-! ### Velocity that requires no gradient -/

section
variable {R : Type*} [Field R] {C : Cfg d ns nr R}

/-- Without scattering potential the scattered field is a field of its own. -/
theorem scRun_none (f fsc : ℕ → Fin ns → R) (s l : St d R) (n : ℕ) :
    scRun (dbCfg C none) f fsc s l n = C.run fsc 0 l n := by
  induction n with
  | zero => rfl
  | succ n ih =>
      rw [scRun, Cfg.run, ih, Nat.zero_add]
      simp only [scNext, Cfg.tNext, Cfg.next, dbCfg, Option.getD_none, zero_mul, add_zero]
      rfl

/-- **C64** (velocity without gradient) If the velocity requires no gradient, the results of the
backward pass depend on its arguments `gr`, `g` only, and linearly: double backpropagation returns the
transpose of that map, and zero for the source amplitudes and initial wavefields of the forward pass.
This holds for every step ratio that divides the number of steps. -/
theorem C64_fixed_velocity (h : C.WF) (hr : 0 < C.ratio) (cb' : Option ℕ) (nt : ℕ) (hd : C.ratio ∣ nt)
    (hcf' : 0 < nt → 0 < cb'.getD (nt / C.ratio)) (f : ℕ → Fin ns → R) (w g₀ : Init d R)
    (gr₀ : ℕ → Fin nr → R) (ggf : Option (ℕ → Fin ns → R)) (ggw : Wavefields d R) :
    ∃ q, doubleBackward C false true nt f w gr₀ g₀ none ggf ggw.toInit = .ok q ∧
      q.f = some (fun _ _ => 0) ∧ q.w = zeroW d R ∧
      ∀ (store : ℕ → Fld d R) (gr : ℕ → Fin nr → R) (g : Wavefields d R),
        ∃ b, C.backward false cb' nt store gr g.toInit = .ok b ∧
          traceInner nt (ggf.getD fun _ _ => 0) b.gf + ggw.inner C.userCells b.out =
            traceInner nt gr q.gr + g.inner C.userCells q.g := by
  obtain ⟨rr, bb, e1, -, e3⟩ := doubleBackward_eq (C := C) false true nt f w gr₀ g₀ none ggf
    ggw.toInit hr hd
  have hc : 0 < nt → 0 < (none : Option ℕ).getD (nt / C.ratio) := fun hp =>
    Nat.div_pos (Nat.le_of_dvd hp hd) hr
  refine ⟨_, e3, rfl, rfl, fun store gr g => ?_⟩
  obtain ⟨r, b, h1, h2, h3⟩ := C04_backward_is_adjoint h hr false false none cb' nt hc hcf'
    (ggf.getD fun _ _ => 0) ggw gr g store
  refine ⟨b, h2, ?_⟩
  rw [C.forward_eq h false none nt _ _ hr hc] at h1
  obtain rfl := Except.ok.inj h1
  have fe := forward_eq (dbCfg_wf h none).base false false none nt f (ggf.getD fun _ _ => 0) w ggw.toInit
    hr hc
  rw [fe] at e1
  obtain rfl := Except.ok.inj e1
  simp only [scRun_none]
  rw [← h3, inner_comm C.userCells g]
  rfl

/-- The receiver part of double backpropagation, for any number of steps. -/
theorem doubleBackward_gr (h : C.WF) (hr : 0 < C.ratio) (vg fg : Bool) (nt : ℕ) (f : ℕ → Fin ns → R)
    (w : Init d R) (gr : ℕ → Fin nr → R) (g : Init d R) (ggv : Option (Fld d R))
    (ggf : Option (ℕ → Fin ns → R)) (ggw : Init d R) :
    ∃ q, doubleBackward C vg fg nt f w gr g ggv ggf ggw = .ok q ∧
      ∀ t < nt, q.gr t = sample C.rcv (scRun (dbCfg C ggv) f (ggf.getD fun _ _ => 0) (C.start w)
        (C.start ggw) t).u := by
  unfold doubleBackward
  rw [if_neg hr.ne']
  refine ⟨_, rfl, fun t ht => ?_⟩
  have hF := Driver.callF_eq FMem.swap_swap (step := fStep (dbCfg C ggv).base.fwdArgs
      (dbCfg C ggv).scatter (dbCfg C ggv).rcvsc vg false f (ggf.getD fun _ _ => 0))
      ((dbCfg C ggv).fInit w ggw) 0 nt
  simp only [Driver.runF, Nat.zero_add] at hF
  have inv : FInv (dbCfg C ggv) vg false f (ggf.getD fun _ _ => 0) ((dbCfg C ggv).base.start w)
      ((dbCfg C ggv).base.start ggw) nt
      (Driver.runF FMem.swap (fStep (dbCfg C ggv).base.fwdArgs (dbCfg C ggv).scatter
        (dbCfg C ggv).rcvsc vg false f (ggf.getD fun _ _ => 0)) ((dbCfg C ggv).fInit w ggw) nt) :=
    Driver.runF_inv ⟨(dbCfg C ggv).base.initBufs_ok w, (dbCfg C ggv).base.initBufs_ok ggw, rfl, rfl,
      fun _ => by simp [BCfg.fInit], fun _ => by simp [BCfg.fInit], fun _ => by simp [BCfg.fInit],
      fun _ => by simp [BCfg.fInit]⟩ (fun n m hm => hm.step (dbCfg_wf h ggv).base hr) nt
  have e := inv.rcdsc t
  simp only [ht, if_true] at e
  simp only [show 0 < nt by omega, if_true]
  rw [hF]
  refine Eq.trans ?_ e
  split_ifs <;> rfl

end

/-- **C64 needs the step ratio to divide the number of steps**: with ratio 2 and 3 steps the backward
pass makes 2 steps but double backpropagation makes 3, and its result is not the derivative of the
backward pass. -/
theorem C64_fails_if_interval_does_not_divide :
    ∃ (ggf : ℕ → Fin 2 → ℚ) (gr : ℕ → Fin 1 → ℚ) (b : BwdResult 2 2 ℚ) (q : DbResult 2 2 1 ℚ),
      exSelf.backward false none 3 (fun _ _ => 0) gr (zeroW 2 ℚ).toInit = .ok b ∧
      doubleBackward exSelf false true 3 (fun _ _ => 0) (zeroW 2 ℚ).toInit gr (zeroW 2 ℚ).toInit none
        (some ggf) (zeroW 2 ℚ).toInit = .ok q ∧
      traceInner 3 ggf b.gf + (zeroW 2 ℚ).inner exSelf.userCells b.out ≠
        traceInner 3 gr q.gr + (zeroW 2 ℚ).inner exSelf.userCells q.g := by
  have hst : exSelf.start (zeroW 2 ℚ).toInit = exSelf.start ⟨none, none, fun _ => none, fun _ => none⟩ := by
    have hz : exSelf.createOrPad (some fun _ => 0) = fun _ => 0 := by
      funext c; simp [Cfg.createOrPad]
    simp only [Cfg.start, zeroW, Wavefields.toInit, hz]
    rfl
  obtain ⟨q, hq, hq2⟩ := doubleBackward_gr exSelf_wf (by decide) false true 3 (fun _ _ => 0)
    (zeroW 2 ℚ).toInit (fun t _ => if t = 2 then 1 else 0) (zeroW 2 ℚ).toInit none (some exPulse)
    (zeroW 2 ℚ).toInit
  obtain ⟨r, b, h1, h2, h3⟩ := C04_backward_is_adjoint exSelf_wf (by decide) false false none none 3
    (by decide) (by decide) exPulse (zeroW 2 ℚ) (fun t _ => if t = 2 then 1 else 0) (zeroW 2 ℚ)
    (fun _ _ => 0)
  refine ⟨exPulse, _, b, q, h2, hq, ?_⟩
  rw [exSelf.forward_eq exSelf_wf false none 3 _ _ (by decide) (by decide)] at h1
  obtain rfl := Except.ok.inj h1
  have hn : ¬2 < 3 / exSelf.ratio * exSelf.ratio := by decide
  have e := hq2 2 (by decide)
  rw [scRun_none, hst] at e
  have e1 : q.gr 2 0 = 1 := by
    rw [e]
    exact exSelf_run_two
  rw [← h3, inner_zeroW, zeroW_inner]
  simp [traceInner, hn, e1]

/-- The hypotheses of C64 hold for the example with ratio 1, with an odd number of steps. -/
example : ∃ q : DbResult 2 2 1 ℝ,
    doubleBackward ({ exCfgOf ℝ with ratio := 1 } : Cfg 2 2 1 ℝ) true true 5 (exAmp ℝ)
      (zeroW 2 ℝ).toInit (fun t _ => t) (zeroW 2 ℝ).toInit (some fun c => (c 0 : ℝ)) (some (exAmp ℝ))
      (zeroW 2 ℝ).toInit = .ok q := by
  have hw : ({ exCfgOf ℝ with ratio := 1 } : Cfg 2 2 1 ℝ).WF := { exCfgOf_wf ℝ with }
  obtain ⟨_, _, q, _, _, -, -, hq, -⟩ := C64_double_backward hw rfl none (some 2) 5 (by decide)
    (by decide) (exAmp ℝ) (exAmp ℝ) (zeroW 2 ℝ) (zeroW 2 ℝ) (fun t _ => t) (fun t _ => t) (zeroW 2 ℝ)
    (zeroW 2 ℝ) (fun c => (c 1 : ℝ)) (some fun c => (c 0 : ℝ)) (some (exAmp ℝ)) (zeroW 2 ℝ)
  exact ⟨q, hq⟩

example : ∃ q, doubleBackward exSelf false true 14 (fun _ _ => 0) (exInit ℚ) (fun t _ => t) (exInit ℚ)
    none (some exPulse) (zeroW 2 ℚ).toInit = .ok q := by
  obtain ⟨q, hq, -⟩ := C64_fixed_velocity exSelf_wf (by decide) (some 2) 14 (by decide) (by decide)
    (fun _ _ => 0) (exInit ℚ) (exInit ℚ) (fun t _ => t) (some exPulse) (zeroW 2 ℚ)
  exact ⟨q, hq⟩

end Dw.Born
