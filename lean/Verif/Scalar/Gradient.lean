import Mathlib.Analysis.Calculus.Deriv.Mul
import Mathlib.Analysis.Calculus.Deriv.Add
import Mathlib.Analysis.Calculus.Deriv.Pow
import Verif.Scalar.Adjoint

/-!
# Tangent-linear recursion and the velocity gradient
-/

namespace Dw.Scalar

variable {d ns nr : ℕ}

section
variable {R : Type*} [Field R]

/-- Tangent of one step with respect to velocity: `s` is the state, `ds` its perturbation, `δ` the
velocity perturbation. -/
def Cfg.tNext (C : Cfg d ns nr R) (δ : Fld d R) (s ds : St d R) : St d R :=
  let s' := C.refStep ds
  { s' with u := fun c => s'.u c + δ c * C.snap s c }

/-- Perturbation of the state after `n` steps. -/
def Cfg.tRun (C : Cfg d ns nr R) (f : ℕ → Fin ns → R) (δ : Fld d R) (s : St d R) : ℕ → St d R
  | 0 => ⟨fun _ => 0, fun _ => 0, fun _ _ => 0, fun _ _ => 0⟩
  | n + 1 => C.tNext δ (C.run f 0 s n) (Cfg.tRun C f δ s n)

variable {C : Cfg d ns nr R}

theorem Cfg.tRun_good (h : C.WF) (f : ℕ → Fin ns → R) (δ : Fld d R) (s : St d R) :
    ∀ n, C.Good (C.tRun f δ s n)
  | 0 => ⟨fun _ _ => rfl, fun _ _ => rfl, fun _ _ _ => rfl, fun _ _ _ => rfl, fun _ _ _ => rfl,
      fun _ _ _ => rfl⟩
  | n + 1 => by
      have g := C.refStep_good h (Cfg.tRun_good h f δ s n)
      exact ⟨fun c hc => by simp [Cfg.tRun, Cfg.tNext, g.u c hc, Cfg.snap, hc], g.p, g.psi, g.zeta,
        g.psi_mid, g.zeta_mid⟩

theorem Cfg.pair_zero (l : St d R) :
    C.pair ⟨fun _ => 0, fun _ => 0, fun _ _ => 0, fun _ _ => 0⟩ l = 0 := by
  simp [Cfg.pair, dot]

/-- Dot-product identity for the tangent recursion. -/
theorem Cfg.pair_tRun (h : C.WF) (s : St d R) {l : St d R} (hl : C.Good l)
    (f : ℕ → Fin ns → R) (δ : Fld d R) (gr : ℕ → Fin nr → R) (T : ℕ) :
    C.pair (C.tRun f δ s T) l
      + ∑ t ∈ Finset.range T, ∑ i, gr t i * sample C.rcv (C.tRun f δ s t).u i =
    ∑ t ∈ Finset.range T,
      dot C.S (fun c => δ c * C.snap (C.run f 0 s t) c) (C.bRun gr T l (T - 1 - t)).u := by
  have key : ∀ n ≤ T,
      C.pair (C.tRun f δ s n) (C.bRun gr T l (T - n))
        + ∑ t ∈ Finset.range n, ∑ i, gr t i * sample C.rcv (C.tRun f δ s t).u i =
      ∑ t ∈ Finset.range n,
        dot C.S (fun c => δ c * C.snap (C.run f 0 s t) c) (C.bRun gr T l (T - 1 - t)).u := by
    intro n
    induction n with
    | zero => intro _; simp [Cfg.tRun, C.pair_zero]
    | succ n ih =>
        intro hn
        have ih' := ih (by omega)
        rw [Finset.sum_range_succ, Finset.sum_range_succ]
        have e : T - n = (T - (n + 1)) + 1 := by omega
        have e2 : T - 1 - n = T - (n + 1) := by omega
        have e3 : T - 1 - (T - (n + 1)) = n := by omega
        rw [e, Cfg.bRun, C.pair_bNext h, e3] at ih'
        have hp : ∀ l, C.pair (C.tRun f δ s (n + 1)) l = C.pair (C.refStep (C.tRun f δ s n)) l
            + dot C.S (fun c => δ c * C.snap (C.run f 0 s n) c) l.u := by
          intro l
          have : dot C.S (C.tRun f δ s (n + 1)).u l.u = dot C.S (C.refStep (C.tRun f δ s n)).u l.u
              + dot C.S (fun c => δ c * C.snap (C.run f 0 s n) c) l.u := dot_add_left _ _ _ _
          simp only [Cfg.pair, this]
          simp only [Cfg.tRun, Cfg.tNext]
          ring
        rw [hp, C.pair_step (C.tRun_good h f δ s n) (C.bRun_good h gr T hl _), e2]
        linear_combination ih'
  have := key T le_rfl
  simpa [Cfg.bRun] using this

end

/-! ### The tangent recursion is the derivative -/

theorem hasDerivAt_cDiff1 (acc : Acc) (rdx : ℝ) {a : ℝ → ℤ → ℝ} {a' : ℤ → ℝ} {x : ℝ}
    (h : ∀ j, HasDerivAt (fun e => a e j) (a' j) x) :
    HasDerivAt (fun e => cDiff1 acc rdx (a e)) (cDiff1 acc rdx a') x := by
  have k : ∀ (m : ℝ) (i j : ℤ), HasDerivAt (fun e => m * (a e i - a e j)) (m * (a' i - a' j)) x :=
    fun m i j => ((h i).sub (h j)).const_mul m
  cases acc
  · exact (k _ _ _).mul_const _
  · exact ((k _ _ _).add (k _ _ _)).mul_const _
  · exact (((k _ _ _).add (k _ _ _)).add (k _ _ _)).mul_const _
  · exact ((((k _ _ _).add (k _ _ _)).add (k _ _ _)).add (k _ _ _)).mul_const _

theorem hasDerivAt_cDiff2 (acc : Acc) (rdx : ℝ) {a : ℝ → ℤ → ℝ} {a' : ℤ → ℝ} {x : ℝ}
    (h : ∀ j, HasDerivAt (fun e => a e j) (a' j) x) :
    HasDerivAt (fun e => cDiff2 acc rdx (a e)) (cDiff2 acc rdx a') x := by
  have s : ∀ i j : ℤ, HasDerivAt (fun e => a e i + a e j) (a' i + a' j) x :=
    fun i j => (h i).add (h j)
  have k : ∀ (m : ℝ) (i j : ℤ), HasDerivAt (fun e => m * (a e i + a e j)) (m * (a' i + a' j)) x :=
    fun m i j => (s i j).const_mul m
  have z : ∀ (m : ℝ) (i : ℤ), HasDerivAt (fun e => m * a e i) (m * a' i) x :=
    fun m i => (h i).const_mul m
  cases acc
  · exact ((z _ _).add (s _ _)).mul_const _
  · exact (((z _ _).add (k _ _ _)).add (k _ _ _)).mul_const _
  · exact ((((z _ _).add (k _ _ _)).add (k _ _ _)).add (k _ _ _)).mul_const _
  · exact (((((z _ _).add (k _ _ _)).add (k _ _ _)).add (k _ _ _)).add (k _ _ _)).mul_const _

/-- The state depends differentiably on a parameter. -/
structure St.HasDeriv (s : ℝ → St d ℝ) (ds : St d ℝ) (x : ℝ) : Prop where
  u : ∀ c, HasDerivAt (fun e => (s e).u c) (ds.u c) x
  p : ∀ c, HasDerivAt (fun e => (s e).p c) (ds.p c) x
  psi : ∀ k c, HasDerivAt (fun e => (s e).psi k c) (ds.psi k c) x
  zeta : ∀ k c, HasDerivAt (fun e => (s e).zeta k c) (ds.zeta k c) x

/-- The configuration with perturbed velocity. -/
def Cfg.pert {R : Type*} [Field R] (C : Cfg d ns nr R) (δ : Fld d R) (e : R) : Cfg d ns nr R :=
  { C with v := fun c => C.v c + e * δ c }

variable {C : Cfg d ns nr ℝ}

theorem Cfg.hasDeriv_tmp {s : ℝ → St d ℝ} {ds : St d ℝ} {x : ℝ} (h : St.HasDeriv s ds x)
    (k : Fin d) (c : Cell d) : HasDerivAt (fun e => C.tmp (s e) k c) (C.tmp ds k c) x := by
  have h1 : HasDerivAt (fun e => C.D1 k (s e).u c) (C.D1 k ds.u c) x :=
    hasDerivAt_cDiff1 _ _ fun j => h.u _
  have h2 : HasDerivAt (fun e => C.D2 k (s e).u c) (C.D2 k ds.u c) x :=
    hasDerivAt_cDiff2 _ _ fun j => h.u _
  have h3 : HasDerivAt (fun e => C.D1 k (fun c => C.a k (c k) * (s e).psi k c) c)
      (C.D1 k (fun c => C.a k (c k) * ds.psi k c) c) x := by
    simp only [Cfg.D1, Dw.D1]
    exact hasDerivAt_cDiff1 _ _ fun j => (h.psi k _).const_mul _
  exact ((h2.const_mul _).add (h1.const_mul _)).add h3

theorem Cfg.hasDeriv_lap {s : ℝ → St d ℝ} {ds : St d ℝ} {x : ℝ} (h : St.HasDeriv s ds x)
    (c : Cell d) : HasDerivAt (fun e => C.lap (s e) c) (C.lap ds c) x := by
  simp only [Cfg.lap]
  exact HasDerivAt.fun_sum fun k _ =>
    ((C.hasDeriv_tmp h k c).const_mul _).add ((h.zeta k c).const_mul _)

theorem Cfg.hasDeriv_next (δ : Fld d ℝ) (q : Fin ns → ℝ) {s : ℝ → St d ℝ} {ds : St d ℝ}
    (h : St.HasDeriv s ds 0) :
    St.HasDeriv (fun e => (C.pert δ e).next q (s e)) (C.tNext δ (s 0) ds) 0 := by
  constructor
  · intro c
    have hv : HasDerivAt (fun e : ℝ => (C.v c + e * δ c) ^ 2) (2 * C.v c * δ c) 0 := by
      have h1 : HasDerivAt (fun e : ℝ => C.v c + e * δ c) (δ c) 0 := by
        simpa using ((hasDerivAt_id (0 : ℝ)).mul_const (δ c)).const_add (C.v c)
      exact (h1.pow 2).congr_deriv (by norm_num)
    have hl := C.hasDeriv_lap h c
    have h2 : HasDerivAt (fun e : ℝ => (C.v c + e * δ c) ^ 2 * C.dt ^ 2 * C.lap (s e) c
        + 2 * (s e).u c - (s e).p c)
        (C.v c ^ 2 * C.dt ^ 2 * C.lap ds c + 2 * ds.u c - ds.p c
          + δ c * (2 * C.v c * C.dt ^ 2 * C.lap (s 0) c)) 0 := by
      exact ((((hv.mul_const (C.dt ^ 2)).mul hl).add ((h.u c).const_mul 2)).sub (h.p c)).congr_deriv
        (by rw [zero_mul, add_zero]; ring)
    by_cases hc : C.Inner c
    · have e1 : (fun e => ((C.pert δ e).next q (s e)).u c) = fun e => ((C.v c + e * δ c) ^ 2 * C.dt ^ 2
          * C.lap (s e) c + 2 * (s e).u c - (s e).p c) + inject C.src q c := by
        funext e
        change (if C.Inner c then _ else 0) + _ = _
        rw [if_pos hc]
        rfl
      rw [e1]
      have e2 : (C.tNext δ (s 0) ds).u c = C.v c ^ 2 * C.dt ^ 2 * C.lap ds c + 2 * ds.u c - ds.p c
          + δ c * (2 * C.v c * C.dt ^ 2 * C.lap (s 0) c) := by
        simp [Cfg.tNext, Cfg.refStep, Cfg.snap, hc]
      rw [e2]
      exact h2.add_const _
    · have e1 : (fun e => ((C.pert δ e).next q (s e)).u c) = fun _ => 0 + inject C.src q c := by
        funext e
        change (if C.Inner c then _ else 0) + _ = _
        rw [if_neg hc]
        rfl
      have e2 : (C.tNext δ (s 0) ds).u c = 0 := by
        simp [Cfg.tNext, Cfg.refStep, Cfg.snap, hc]
      rw [e1, e2]
      exact hasDerivAt_const _ _
  · exact h.u
  · intro k c
    have h1 : HasDerivAt (fun e => C.D1 k (s e).u c) (C.D1 k ds.u c) 0 :=
      hasDerivAt_cDiff1 _ _ fun j => h.u _
    by_cases hc : C.Inner c
    · have e1 : (fun e => ((C.pert δ e).next q (s e)).psi k c) =
          fun e => C.b k (c k) * C.D1 k (s e).u c + C.a k (c k) * (s e).psi k c := by
        funext e
        change (if C.Inner c then _ else 0) = _
        rw [if_pos hc]
        rfl
      rw [e1]
      simp only [Cfg.tNext, Cfg.refStep, hc, if_true]
      exact (h1.const_mul _).add ((h.psi k c).const_mul _)
    · have e1 : (fun e => ((C.pert δ e).next q (s e)).psi k c) = fun _ => 0 := by
        funext e
        change (if C.Inner c then _ else 0) = _
        rw [if_neg hc]
      rw [e1]
      simp only [Cfg.tNext, Cfg.refStep, hc, if_false]
      exact hasDerivAt_const _ _
  · intro k c
    have h1 := C.hasDeriv_tmp h k c
    by_cases hc : C.Inner c
    · have e1 : (fun e => ((C.pert δ e).next q (s e)).zeta k c) =
          fun e => C.b k (c k) * C.tmp (s e) k c + C.a k (c k) * (s e).zeta k c := by
        funext e
        change (if C.Inner c then _ else 0) = _
        rw [if_pos hc]
        rfl
      rw [e1]
      simp only [Cfg.tNext, Cfg.refStep, hc, if_true]
      exact (h1.const_mul _).add ((h.zeta k c).const_mul _)
    · have e1 : (fun e => ((C.pert δ e).next q (s e)).zeta k c) = fun _ => 0 := by
        funext e
        change (if C.Inner c then _ else 0) = _
        rw [if_neg hc]
      rw [e1]
      simp only [Cfg.tNext, Cfg.refStep, hc, if_false]
      exact hasDerivAt_const _ _

theorem Cfg.pert_zero (δ : Fld d ℝ) : C.pert δ 0 = C := by simp [Cfg.pert]

theorem Cfg.hasDeriv_run (δ : Fld d ℝ) (f : ℕ → Fin ns → ℝ) (s : St d ℝ) (n : ℕ) :
    St.HasDeriv (fun e => (C.pert δ e).run f 0 s n) (C.tRun f δ s n) 0 := by
  induction n with
  | zero =>
      exact ⟨fun c => hasDerivAt_const (0 : ℝ) (s.u c), fun c => hasDerivAt_const (0 : ℝ) (s.p c),
        fun k c => hasDerivAt_const (0 : ℝ) (s.psi k c),
        fun k c => hasDerivAt_const (0 : ℝ) (s.zeta k c)⟩
  | succ n ih =>
      have := C.hasDeriv_next δ (f (0 + n)) ih
      rw [C.pert_zero δ] at this
      exact this

theorem Cfg.pert_wf (h : C.WF) (δ : Fld d ℝ) (e : ℝ) : (C.pert δ e).WF :=
  ⟨h.w0_nonneg, h.w1_nonneg, h.size, h.a_mid, h.b_mid, h.db_mid, h.src_in, h.rcv_in⟩

end Dw.Scalar
