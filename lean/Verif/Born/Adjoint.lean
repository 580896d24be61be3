import Verif.Born.Backward
import Mathlib.Tactic.LinearCombination

/-!
# Dot-product identities and derivatives of the Born recursions
-/

namespace Dw.Born

open Dw.Scalar

variable {d ns nr nq : ℕ}

section
variable {R : Type*} [Field R] {C : Cfg d ns nr R} {B : BCfg d ns nr nq R}

theorem pair_stepX {s l : St d R} (hs : C.Good s) (hl : C.Good l) (x : Fld d R)
    (hx : ∀ c, ¬C.Inner c → x c = 0) :
    C.pair s (bStepX C x l) = dot C.S (lapIn C s) x + 2 * dot C.S s.u l.u - dot C.S s.p l.u
      - dot C.S s.u l.p + ∑ k, dot C.S ((C.refStep s).psi k) (l.psi k)
      + ∑ k, dot C.S ((C.refStep s).zeta k) (l.zeta k) := by
  have key := (unit C).pair_step (s := s) (l := { l with u := x }) (unit_good hs)
    ⟨hx, hl.p, hl.psi, hl.zeta, hl.psi_mid, hl.zeta_mid⟩
  have eS : (unit C).S = C.S := rfl
  have a1 : dot C.S ((unit C).refStep s).u x =
      dot C.S (lapIn C s) x + 2 * dot C.S s.u x - dot C.S s.p x := by
    rw [← dot_smul_left, ← dot_add_left, ← dot_sub_left]
    refine dot_congr_left fun c hc => ?_
    rw [Cfg.mem_S] at hc
    have hc' : (unit C).Inner c := hc
    simp only [Cfg.refStep, hc', if_true, lapIn, hc]
    change (1 : R) ^ 2 * 1 ^ 2 * C.lap s c + _ - _ = _
    ring
  have a2 : dot C.S s.u ((unit C).bStep { l with u := x }).u =
      dot C.S s.u (bLapX C x l) + 2 * dot C.S s.u x - dot C.S s.u l.p := by
    rw [← dot_smul_right, ← dot_add_right, ← dot_sub_right]
    refine dot_congr_right fun c hc => ?_
    rw [Cfg.mem_S] at hc
    have hc' : (unit C).Inner c := hc
    simp only [Cfg.bStep, hc', if_true, bLap_unit]
  have a3 : dot C.S s.u (bStepX C x l).u =
      dot C.S s.u (bLapX C x l) + 2 * dot C.S s.u l.u - dot C.S s.u l.p := by
    rw [← dot_smul_right, ← dot_add_right, ← dot_sub_right]
    refine dot_congr_right fun c hc => ?_
    rw [Cfg.mem_S] at hc
    simp only [bStepX, hc, if_true]
  have a4 : ∀ k, ((unit C).bStep { l with u := x }).psi k = (bStepX C x l).psi k := by
    intro k
    funext c
    simp only [Cfg.bStep, bStepX, bT_unit]
    rfl
  have a5 : ∀ k, ((unit C).bStep { l with u := x }).zeta k = (bStepX C x l).zeta k := by
    intro k
    funext c
    simp only [Cfg.bStep, bStepX, unit_V, one_mul]
    rfl
  have a6 : ((unit C).refStep s).p = s.u := rfl
  have a7 : ((unit C).bStep { l with u := x }).p = x := rfl
  have a8 : (bStepX C x l).p = l.u := rfl
  have a9 : ∀ k, ((unit C).refStep s).psi k = (C.refStep s).psi k := fun _ => rfl
  have a10 : ∀ k, ((unit C).refStep s).zeta k = (C.refStep s).zeta k := fun _ => rfl
  simp only [Cfg.pair, eS, a1, a2, a4, a5, a6, a7, a9, a10] at key
  simp only [Cfg.pair, a3, a8]
  linear_combination -key

/-- The term by which the background adjoint step differs from a scalar adjoint step. -/
theorem pair_bgX {s l μ : St d R} (hs : B.base.Good s) (hl : B.base.Good l) (hm : B.base.Good μ) :
    B.base.pair s (bStepX B.base (bgX B l μ) l) = B.base.pair s (B.base.bStep l)
      + dot B.base.S (fun c => B.scatter c * B.base.snap s c) μ.u := by
  rw [← bStepX_self, pair_stepX hs hl, pair_stepX hs hl]
  · have : dot B.base.S (lapIn B.base s) (bgX B l μ) =
        dot B.base.S (lapIn B.base s) (fun c => B.base.V c * l.u c)
          + dot B.base.S (fun c => B.scatter c * B.base.snap s c) μ.u := by
      simp only [dot, ← Finset.sum_add_distrib]
      refine Finset.sum_congr rfl fun c hc => ?_
      rw [Cfg.mem_S] at hc
      simp only [lapIn, bgX, Cfg.snap, hc, if_true]
      ring
    rw [this]; ring
  · intro c hc; simp [hl.u c hc]
  · intro c hc; simp [bgX, hl.u c hc, hm.u c hc]

theorem pair_scBNext (h : B.WF) (q : Fin nq → R) (s μ : St d R) :
    B.base.pair s (scBNext B q μ) = B.base.pair s (B.base.bStep μ)
      + ∑ i, q i * sample B.rcvsc s.u i := by
  rw [← dot_inject_left h.rcvsc_in, dot_comm B.base.S (inject B.rcvsc q)]
  have : dot B.base.S s.u (scBNext B q μ).u = dot B.base.S s.u (B.base.bStep μ).u
      + dot B.base.S s.u (inject B.rcvsc q) := dot_add_right _ _ _ _
  simp only [Cfg.pair, this]
  simp only [scBNext]
  ring

theorem pair_bgBNext (h : B.WF) (q : Fin nr → R) {s l μ : St d R} (hs : B.base.Good s)
    (hl : B.base.Good l) (hm : B.base.Good μ) :
    B.base.pair s (bgBNext B q l μ) = B.base.pair s (B.base.bStep l)
      + dot B.base.S (fun c => B.scatter c * B.base.snap s c) μ.u
      + ∑ i, q i * sample B.base.rcv s.u i := by
  rw [← pair_bgX hs hl hm, ← dot_inject_left h.base.rcv_in, dot_comm B.base.S (inject B.base.rcv q)]
  have : dot B.base.S s.u (bgBNext B q l μ).u = dot B.base.S s.u (bStepX B.base (bgX B l μ) l).u
      + dot B.base.S s.u (inject B.base.rcv q) := dot_add_right _ _ _ _
  simp only [Cfg.pair, this]
  simp only [bgBNext]
  ring

theorem pair_tNext (δ : Fld d R) (s q l : St d R) :
    C.pair (C.tNext δ s q) l = C.pair (C.refStep q) l
      + dot C.S (fun c => δ c * C.snap s c) l.u := by
  have : dot C.S (C.tNext δ s q).u l.u = dot C.S (C.refStep q).u l.u
      + dot C.S (fun c => δ c * C.snap s c) l.u := dot_add_left _ _ _ _
  simp only [Cfg.pair, this]
  simp only [Cfg.tNext]
  ring

theorem pair_scNext (h : B.base.WF) (q : Fin ns → R) (s l μ : St d R) :
    B.base.pair (scNext B q s l) μ = B.base.pair (B.base.refStep l) μ
      + dot B.base.S (fun c => B.scatter c * B.base.snap s c) μ.u
      + ∑ i, q i * sample B.base.src μ.u i := by
  rw [← pair_tNext, ← dot_inject_left h.src_in]
  have : dot B.base.S (scNext B q s l).u μ.u = dot B.base.S (B.base.tNext B.scatter s l).u μ.u
      + dot B.base.S (inject B.base.src q) μ.u := dot_add_left _ _ _ _
  simp only [Cfg.pair, this]
  simp only [scNext]
  ring

/-- Dot-product identity of the scattered field, with the scattering potential as an input. -/
theorem pair_scRun (h : B.WF) (s : St d R) {l μ : St d R} (hl : B.base.Good l) (hm : B.base.Good μ)
    (f fsc : ℕ → Fin ns → R) (grsc : ℕ → Fin nq → R) (T : ℕ) :
    B.base.pair (scRun B f fsc s l T) μ
      + ∑ t ∈ Finset.range T, ∑ i, grsc t i * sample B.rcvsc (scRun B f fsc s l t).u i =
    B.base.pair l (scBRun B grsc T μ T)
      + ∑ t ∈ Finset.range T, ∑ i, fsc t i * sample B.base.src (scBRun B grsc T μ (T - 1 - t)).u i
      + ∑ t ∈ Finset.range T, dot B.base.S
          (fun c => B.scatter c * B.base.snap (B.base.run f 0 s t) c) (scBRun B grsc T μ (T - 1 - t)).u := by
  have key : ∀ n ≤ T,
      B.base.pair (scRun B f fsc s l n) (scBRun B grsc T μ (T - n))
        + ∑ t ∈ Finset.range n, ∑ i, grsc t i * sample B.rcvsc (scRun B f fsc s l t).u i =
      B.base.pair l (scBRun B grsc T μ T)
        + ∑ t ∈ Finset.range n, ∑ i, fsc t i * sample B.base.src (scBRun B grsc T μ (T - 1 - t)).u i
        + ∑ t ∈ Finset.range n, dot B.base.S
          (fun c => B.scatter c * B.base.snap (B.base.run f 0 s t) c)
          (scBRun B grsc T μ (T - 1 - t)).u := by
    intro n
    induction n with
    | zero => intro _; simp [scRun]
    | succ n ih =>
        intro hn
        have ih' := ih (by omega)
        simp only [Finset.sum_range_succ]
        have e : T - n = (T - (n + 1)) + 1 := by omega
        have e2 : T - 1 - n = T - (n + 1) := by omega
        have e3 : T - 1 - (T - (n + 1)) = n := by omega
        rw [e, scBRun, pair_scBNext h, e3] at ih'
        rw [scRun, pair_scNext h.base, B.base.pair_step (scRun_good h.base f fsc s hl n)
          (scBRun_good h grsc T hm _), e2]
        linear_combination ih'
  have := key T le_rfl
  simpa [scBRun] using this

/-- Dot-product identity of both fields. -/
theorem pair_bornRun (h : B.WF) {s l x μ : St d R} (hs : B.base.Good s) (hl : B.base.Good l)
    (hx : B.base.Good x) (hm : B.base.Good μ) (f fsc : ℕ → Fin ns → R) (gr : ℕ → Fin nr → R)
    (grsc : ℕ → Fin nq → R) (T : ℕ) :
    B.base.pair (B.base.run f 0 s T) x + B.base.pair (scRun B f fsc s l T) μ
      + ∑ t ∈ Finset.range T, ∑ i, gr t i * sample B.base.rcv (B.base.run f 0 s t).u i
      + ∑ t ∈ Finset.range T, ∑ i, grsc t i * sample B.rcvsc (scRun B f fsc s l t).u i =
    B.base.pair s (bgBRun B gr grsc T x μ T) + B.base.pair l (scBRun B grsc T μ T)
      + ∑ t ∈ Finset.range T, ∑ i, f t i
          * sample B.base.src (bgBRun B gr grsc T x μ (T - 1 - t)).u i
      + ∑ t ∈ Finset.range T, ∑ i, fsc t i
          * sample B.base.src (scBRun B grsc T μ (T - 1 - t)).u i := by
  have key : ∀ n ≤ T,
      B.base.pair (B.base.run f 0 s n) (bgBRun B gr grsc T x μ (T - n))
        + ∑ t ∈ Finset.range n, ∑ i, gr t i * sample B.base.rcv (B.base.run f 0 s t).u i =
      B.base.pair s (bgBRun B gr grsc T x μ T)
        + ∑ t ∈ Finset.range n, ∑ i, f t i
          * sample B.base.src (bgBRun B gr grsc T x μ (T - 1 - t)).u i
        - ∑ t ∈ Finset.range n, dot B.base.S
          (fun c => B.scatter c * B.base.snap (B.base.run f 0 s t) c)
          (scBRun B grsc T μ (T - 1 - t)).u := by
    intro n
    induction n with
    | zero => intro _; simp [Cfg.run]
    | succ n ih =>
        intro hn
        have ih' := ih (by omega)
        simp only [Finset.sum_range_succ]
        have e : T - n = (T - (n + 1)) + 1 := by omega
        have e2 : T - 1 - n = T - (n + 1) := by omega
        have e3 : T - 1 - (T - (n + 1)) = n := by omega
        rw [e, bgBRun, pair_bgBNext h _ (B.base.run_good h.base f 0 hs n)
          (bgBRun_good h gr grsc T μ hx _) (scBRun_good h grsc T hm _), e3] at ih'
        rw [Cfg.run, B.base.pair_next h.base, Nat.zero_add,
          B.base.pair_step (B.base.run_good h.base f 0 hs n) (bgBRun_good h gr grsc T μ hx _), e2]
        linear_combination ih'
  have k1 := key T le_rfl
  have k2 := pair_scRun h s hl hm f fsc grsc T
  have e0 : bgBRun B gr grsc T x μ (T - T) = x := by simp [bgBRun]
  rw [e0] at k1
  linear_combination k1 + k2

/-- Perturbation of the scattered field caused by a perturbation `δ` of the velocity; `x`, `l` are
the two fields and `dx` the perturbation of the background field. -/
def t2Next (B : BCfg d ns nr nq R) (δ : Fld d R) (x l dx q : St d R) : St d R :=
  let s' := B.base.tNext δ l q
  { s' with u := fun c => s'.u c + B.scatter c * (δ c * (2 * B.base.dt ^ 2 * lapIn B.base x c)
      + B.base.snap dx c) }

def t2Run (B : BCfg d ns nr nq R) (f fsc : ℕ → Fin ns → R) (δ : Fld d R) (s l : St d R) : ℕ → St d R
  | 0 => ⟨fun _ => 0, fun _ => 0, fun _ _ => 0, fun _ _ => 0⟩
  | n + 1 => t2Next B δ (B.base.run f 0 s n) (scRun B f fsc s l n) (B.base.tRun f δ s n)
      (t2Run B f fsc δ s l n)

theorem t2Run_good (h : B.base.WF) (f fsc : ℕ → Fin ns → R) (δ : Fld d R) (s l : St d R) :
    ∀ n, B.base.Good (t2Run B f fsc δ s l n)
  | 0 => ⟨fun _ _ => rfl, fun _ _ => rfl, fun _ _ _ => rfl, fun _ _ _ => rfl, fun _ _ _ => rfl,
      fun _ _ _ => rfl⟩
  | n + 1 => by
      have g := B.base.refStep_good h (t2Run_good h f fsc δ s l n)
      exact ⟨fun c hc => by simp [t2Run, t2Next, Cfg.tNext, g.u c hc, Cfg.snap, lapIn, hc], g.p, g.psi,
        g.zeta, g.psi_mid, g.zeta_mid⟩

theorem pair_t2Next (δ : Fld d R) (x l dx q μ : St d R) :
    B.base.pair (t2Next B δ x l dx q) μ = B.base.pair (B.base.refStep q) μ
      + dot B.base.S (fun c => δ c * B.base.snap l c) μ.u
      + dot B.base.S (fun c => δ c * (2 * B.base.dt ^ 2 * B.scatter c * lapIn B.base x c)) μ.u
      + dot B.base.S (fun c => B.scatter c * B.base.snap dx c) μ.u := by
  rw [← pair_tNext]
  have : dot B.base.S (t2Next B δ x l dx q).u μ.u = dot B.base.S (B.base.tNext δ l q).u μ.u
      + dot B.base.S (fun c => δ c * (2 * B.base.dt ^ 2 * B.scatter c * lapIn B.base x c)) μ.u
      + dot B.base.S (fun c => B.scatter c * B.base.snap dx c) μ.u := by
    rw [← dot_add_left, ← dot_add_left]
    refine dot_congr_left fun c _ => ?_
    simp only [t2Next]
    ring
  simp only [Cfg.pair, this]
  simp only [t2Next]
  ring

/-- Dot-product identity of the perturbations caused by a velocity perturbation. -/
theorem pair_t2Run (h : B.WF) (s l : St d R) {x μ : St d R}
    (hx : B.base.Good x) (hm : B.base.Good μ) (f fsc : ℕ → Fin ns → R) (δ : Fld d R)
    (gr : ℕ → Fin nr → R) (grsc : ℕ → Fin nq → R) (T : ℕ) :
    B.base.pair (B.base.tRun f δ s T) x + B.base.pair (t2Run B f fsc δ s l T) μ
      + ∑ t ∈ Finset.range T, ∑ i, gr t i * sample B.base.rcv (B.base.tRun f δ s t).u i
      + ∑ t ∈ Finset.range T, ∑ i, grsc t i * sample B.rcvsc (t2Run B f fsc δ s l t).u i =
    ∑ t ∈ Finset.range T,
      (dot B.base.S (fun c => δ c * B.base.snap (B.base.run f 0 s t) c)
          (bgBRun B gr grsc T x μ (T - 1 - t)).u
        + dot B.base.S (fun c => δ c * B.base.snap (scRun B f fsc s l t) c)
          (scBRun B grsc T μ (T - 1 - t)).u
        + dot B.base.S (fun c => δ c * (2 * B.base.dt ^ 2 * B.scatter c
            * lapIn B.base (B.base.run f 0 s t) c)) (scBRun B grsc T μ (T - 1 - t)).u) := by
  have key : ∀ n ≤ T,
      B.base.pair (B.base.tRun f δ s n) (bgBRun B gr grsc T x μ (T - n))
        + B.base.pair (t2Run B f fsc δ s l n) (scBRun B grsc T μ (T - n))
        + ∑ t ∈ Finset.range n, ∑ i, gr t i * sample B.base.rcv (B.base.tRun f δ s t).u i
        + ∑ t ∈ Finset.range n, ∑ i, grsc t i * sample B.rcvsc (t2Run B f fsc δ s l t).u i =
      ∑ t ∈ Finset.range n,
        (dot B.base.S (fun c => δ c * B.base.snap (B.base.run f 0 s t) c)
            (bgBRun B gr grsc T x μ (T - 1 - t)).u
          + dot B.base.S (fun c => δ c * B.base.snap (scRun B f fsc s l t) c)
            (scBRun B grsc T μ (T - 1 - t)).u
          + dot B.base.S (fun c => δ c * (2 * B.base.dt ^ 2 * B.scatter c
              * lapIn B.base (B.base.run f 0 s t) c)) (scBRun B grsc T μ (T - 1 - t)).u) := by
    intro n
    induction n with
    | zero => intro _; simp [Cfg.tRun, t2Run, Cfg.pair_zero]
    | succ n ih =>
        intro hn
        have ih' := ih (by omega)
        simp only [Finset.sum_range_succ]
        have e : T - n = (T - (n + 1)) + 1 := by omega
        have e2 : T - 1 - n = T - (n + 1) := by omega
        have e3 : T - 1 - (T - (n + 1)) = n := by omega
        have g1 := B.base.tRun_good h.base f δ s n
        have g2 := t2Run_good h.base f fsc δ s l n
        have g3 := bgBRun_good h gr grsc T μ hx (T - (n + 1))
        have g4 := scBRun_good h grsc T hm (T - (n + 1))
        rw [e, bgBRun, pair_bgBNext h _ g1 g3 g4, scBRun, pair_scBNext h, e3] at ih'
        rw [Cfg.tRun, pair_tNext, B.base.pair_step g1 g3, t2Run, pair_t2Next,
          B.base.pair_step g2 g4, e2]
        linear_combination ih'
  have := key T le_rfl
  simpa [bgBRun, scBRun] using this

end

/-! ### Derivatives -/

variable {B : BCfg d ns nr nq ℝ} {C : Cfg d ns nr ℝ}

theorem hasDeriv_next' (δ : Fld d ℝ) {q : ℝ → Fin ns → ℝ} {q' : Fin ns → ℝ}
    (hq : ∀ i, HasDerivAt (fun e => q e i) (q' i) 0) {s : ℝ → St d ℝ} {ds : St d ℝ}
    (h : St.HasDeriv s ds 0) :
    St.HasDeriv (fun e => (C.pert δ e).next (q e) (s e))
      (let s' := C.tNext δ (s 0) ds; { s' with u := fun c => s'.u c + inject C.src q' c }) 0 := by
  have k := C.hasDeriv_next δ (fun _ => 0) h
  refine ⟨fun c => ?_, k.p, k.psi, k.zeta⟩
  have hi : HasDerivAt (fun e => inject C.src (q e) c) (inject C.src q' c) 0 := by
    refine HasDerivAt.fun_sum fun i _ => ?_
    by_cases hc : C.src i = some c
    · simp only [hc, if_true]; exact hq i
    · simp only [hc, if_false]; exact hasDerivAt_const _ _
  refine ((k.u c).add hi).congr_of_eventuallyEq (Filter.Eventually.of_forall fun e => ?_)
  change _ + _ = (_ + inject C.src (fun _ => 0) c) + inject C.src (q e) c
  have : inject C.src (fun _ => (0 : ℝ)) c = 0 := by simp [inject]
  rw [this, add_zero]
  rfl

/-- The scattered field is the derivative of the scalar field along the scattering potential. -/
theorem hasDeriv_scRun {f : ℝ → ℕ → Fin ns → ℝ} {f' : ℕ → Fin ns → ℝ}
    (hf : ∀ t i, HasDerivAt (fun e => f e t i) (f' t i) 0) {s : ℝ → St d ℝ} {l : St d ℝ}
    (hs : St.HasDeriv s l 0) (n : ℕ) :
    St.HasDeriv (fun e => (B.base.pert B.scatter e).run (f e) 0 (s e) n)
      (scRun B (f 0) f' (s 0) l n) 0 := by
  induction n with
  | zero => exact hs
  | succ n ih =>
      have := hasDeriv_next' (C := B.base) B.scatter (hf (0 + n)) ih
      rw [B.base.pert_zero B.scatter, Nat.zero_add] at this
      simp only [Cfg.run, Nat.zero_add]
      exact this

/-- The Born configuration with perturbed velocity. -/
def BCfg.pert {R : Type*} [Field R] (B : BCfg d ns nr nq R) (δ : Fld d R) (e : R) :
    BCfg d ns nr nq R := { B with base := B.base.pert δ e }

theorem BCfg.pert_wf (h : B.WF) (δ : Fld d ℝ) (e : ℝ) : (B.pert δ e).WF :=
  ⟨B.base.pert_wf h.base δ e, h.rcvsc_in⟩

theorem BCfg.pert_zero (δ : Fld d ℝ) : B.pert δ 0 = B := by simp [BCfg.pert, Cfg.pert_zero]

theorem hasDeriv_t2Next (δ : Fld d ℝ) (q : Fin ns → ℝ) {x l : ℝ → St d ℝ} {dx dl : St d ℝ}
    (hx : St.HasDeriv x dx 0) (hl : St.HasDeriv l dl 0) :
    St.HasDeriv (fun e => scNext (B.pert δ e) q (x e) (l e)) (t2Next B δ (x 0) (l 0) dx dl) 0 := by
  have k := B.base.hasDeriv_next δ q hl
  refine ⟨fun c => ?_, k.p, k.psi, k.zeta⟩
  have hsn : HasDerivAt (fun e => (B.base.pert δ e).snap (x e) c)
      (δ c * (2 * B.base.dt ^ 2 * lapIn B.base (x 0) c) + B.base.snap dx c) 0 := by
    by_cases hc : B.base.Inner c
    · have hv : HasDerivAt (fun e : ℝ => 2 * (B.base.v c + e * δ c)) (2 * δ c) 0 := by
        have h1 : HasDerivAt (fun e : ℝ => B.base.v c + e * δ c) (δ c) 0 := by
          simpa using ((hasDerivAt_id (0 : ℝ)).mul_const (δ c)).const_add (B.base.v c)
        exact h1.const_mul 2
      have := (hv.mul_const (B.base.dt ^ 2)).mul (B.base.hasDeriv_lap hx c)
      have e1 : (fun e => (B.base.pert δ e).snap (x e) c) = fun e : ℝ =>
          2 * (B.base.v c + e * δ c) * B.base.dt ^ 2 * B.base.lap (x e) c := by
        funext e
        change (if B.base.Inner c then _ else _) = _
        rw [if_pos hc]
        rfl
      rw [e1]
      refine this.congr_deriv ?_
      simp only [lapIn, Cfg.snap, hc, if_true, zero_mul, add_zero]
      ring
    · have e1 : (fun e => (B.base.pert δ e).snap (x e) c) = fun _ : ℝ => 0 := by
        funext e
        change (if B.base.Inner c then _ else _) = _
        rw [if_neg hc]
      rw [e1]
      simp only [lapIn, Cfg.snap, hc, if_false, mul_zero, add_zero]
      exact hasDerivAt_const _ _
  refine ((k.u c).add (hsn.const_mul (B.scatter c))).congr_of_eventuallyEq
    (Filter.Eventually.of_forall fun e => ?_)
  change (_ + B.scatter c * (B.base.pert δ e).snap (x e) c) + _ = (_ + _) + _
  exact add_right_comm _ _ _

theorem hasDeriv_t2Run (δ : Fld d ℝ) (f fsc : ℕ → Fin ns → ℝ) (s l : St d ℝ) (n : ℕ) :
    St.HasDeriv (fun e => scRun (B.pert δ e) f fsc s l n) (t2Run B f fsc δ s l n) 0 := by
  induction n with
  | zero =>
      exact ⟨fun c => hasDerivAt_const (0 : ℝ) (l.u c), fun c => hasDerivAt_const (0 : ℝ) (l.p c),
        fun k c => hasDerivAt_const (0 : ℝ) (l.psi k c),
        fun k c => hasDerivAt_const (0 : ℝ) (l.zeta k c)⟩
  | succ n ih =>
      have := hasDeriv_t2Next (B := B) δ (fsc n) (B.base.hasDeriv_run δ f s n) ih
      rw [B.base.pert_zero δ, BCfg.pert_zero] at this
      exact this

end Dw.Born
