import Verif.Props.Stencil
import Verif.Props.ScalarForward
import Verif.Props.Acoustic
import Verif.Props.Elastic

/-!
# C61: every step is the documented equation with exact derivatives of polynomials

Outside the PML, where the wavefields are polynomials of the degree given by the accuracy along each
dimension, consecutive outputs of the propagators satisfy the time-discretised wave equations with
the exact space derivatives.
-/

namespace Dw

open Polynomial

variable {d : ℕ} {R : Type*} [Field R]

/-! ### Specification -/

/-- Along dimension `k`, up to `m` cells on either side of `c`, the array `u` holds the values of `P`;
the value at the cell `x` cells further lies at position `(x + o) * h`. -/
def Follows (u : Fld d R) (c : Cell d) (k : Fin d) (m : ℕ) (o h : R) (P : R[X]) : Prop :=
  ∀ x : ℤ, -m ≤ x → x ≤ m → u (c.shift k x) = P.eval ((x + o) * h)

/-- Position within a cell: half points lie half a cell further than integer points. -/
def off (b : Bool) : R := if b then 1 / 2 else 0

/-- Sum of the amplitudes of the sources at a cell; `p` is the number of padding cells. -/
def sourcesAt {m : ℕ} (loc : Fin m → Option (Cell d)) (amp : Fin m → R) (p : ℕ) (c : Cell d) : R :=
  ∑ i, if loc i = some (fun k => c k + p) then amp i else 0

/-! ### Stencils -/

theorem shift_pad (c : Cell d) (k : Fin d) (x : ℤ) (p : ℕ) :
    (fun j => (c.shift k x) j + (p : ℤ)) = Cell.shift (fun j => c j + (p : ℤ)) k x := by
  funext j
  by_cases h : j = k
  · subst h; simp; ring
  · rw [Cell.shift_ne _ _ _ _ h, Cell.shift_ne _ _ _ _ h]

theorem cDiff2_congr' (acc : Acc) (rdx : R) {a a' : ℤ → R}
    (h : ∀ j : ℤ, -acc.pad ≤ j → j ≤ acc.pad → a j = a' j) : cDiff2 acc rdx a = cDiff2 acc rdx a' := by
  cases acc <;> simp only [Acc.pad] at h <;> simp only [cDiff2] <;>
    simp (disch := omega) only [h]

theorem cDiff1_congr' (acc : Acc) (rdx : R) {a a' : ℤ → R}
    (h : ∀ j : ℤ, -acc.pad ≤ j → j ≤ acc.pad → a j = a' j) : cDiff1 acc rdx a = cDiff1 acc rdx a' := by
  cases acc <;> simp only [Acc.pad] at h <;> simp only [cDiff1] <;>
    simp (disch := omega) only [h]

variable [CharZero R]

theorem second_poly (acc : Acc) {u : Fld d R} {c : Cell d} {k : Fin d} {h : R} (hh : h ≠ 0) {P : R[X]}
    (hP : P.natDegree ≤ acc.order + 1) (hu : Follows u c k acc.pad 0 h P) :
    cDiff2 acc (1 / h ^ 2) (fun x => u (c.shift k x)) = (derivative (derivative P)).eval 0 := by
  rw [← (C28_second_derivative acc P hP 0 h hh).1]
  exact cDiff2_congr' acc _ fun x h1 h2 => by rw [hu x h1 h2, add_zero, zero_add]

theorem half_poly (acc : Acc) {u : Fld d R} {c : Cell d} {k : Fin d} {h : R} (hh : h ≠ 0) {P : R[X]}
    (hP : P.natDegree ≤ acc.order) (hu : Follows u c k acc.pad 0 h P) :
    cSH1 acc (1 / h) (fun x => u (c.shift k x)) = (derivative P).eval (1 / 2 * h) := by
  have := (C28_staggered acc P hP 0 h hh).2.1
  rw [zero_add] at this
  rw [← this]
  exact cSH1_congr acc _ fun x h1 h2 => by rw [hu x (by omega) h2, add_zero, zero_add]

theorem int_poly (acc : Acc) {u : Fld d R} {c : Cell d} {k : Fin d} {h : R} (hh : h ≠ 0) {P : R[X]}
    (hP : P.natDegree ≤ acc.order) (hu : Follows u c k acc.pad (1 / 2) h P) :
    cS1 acc (1 / h) (fun x => u (c.shift k x)) = (derivative P).eval 0 := by
  have := (C28_staggered acc P hP 0 h hh).1
  rw [← this]
  exact cS1_congr acc _ fun x h1 h2 => by rw [hu x h1 (by omega), zero_add]

end Dw

/-! ### Scalar -/

namespace Dw.Scalar

open Polynomial

variable {d ns nr : ℕ} {R : Type*} [Field R] [CharZero R] {C : Cfg d ns nr R}

/-- **C61** (scalar) At a cell more than the stencil reach away from the PML, where the wavefield after
`nt` steps is a polynomial `P k` of degree at most accuracy + 1 along every dimension `k`, the next step
gives `u' = 2 u - u_prev + v² dt² Σ ∂²u/∂x_k² + sources`. -/
theorem C61_scalar_equation (h : C.WF) (hr : C.ratio = 1) (g g' : Bool) (nt : ℕ) (f : ℕ → Fin ns → R)
    (w : Init d R) :
    ∃ r r', C.forward g none nt f w = .ok r ∧ C.forward g' none (nt + 1) f w = .ok r' ∧
      r'.out.wfp = r.out.wfc ∧
      ∀ (c : Cell d) (P : Fin d → R[X]),
        (∀ k, C.w0 k + C.acc.pad ≤ c k ∧ c k < C.n k - 2 * C.acc.pad - C.w1 k - C.acc.pad) →
        (∀ k, C.dx k ≠ 0 ∧ (P k).natDegree ≤ C.acc.order + 1 ∧
          Follows r.out.wfc c k C.acc.pad 0 (C.dx k) (P k)) →
        r'.out.wfc c = 2 * r.out.wfc c - r.out.wfp c
          + C.v (fun k => c k + C.acc.pad) ^ 2 * C.dt ^ 2 * ∑ k, (derivative (derivative (P k))).eval 0
          + sourcesAt C.src (f nt) C.acc.pad c := by
  refine ⟨_, _, C.forward_eq h g none nt f w (by omega) (by simp [hr]),
    C.forward_eq h g' none (nt + 1) f w (by omega) (by simp [hr]), ?_, ?_⟩
  all_goals simp only [hr, Nat.div_one, mul_one, Cfg.outOf]
  · rfl
  · intro c P hc hP
    set s := C.run f 0 (C.start w) nt with hs
    have hstep : C.run f 0 (C.start w) (nt + 1) = C.next (f nt) s := by
      rw [Cfg.run, Nat.zero_add]
    rw [hstep]
    set e : Cell d := fun k => c k + C.acc.pad with he
    have hmid : ∀ k (x : ℤ), -(C.acc.pad : ℤ) ≤ x → x ≤ C.acc.pad → C.Mid k (e k + x) := fun k x h1 h2 => by
      have := hc k
      simp only [Cfg.Mid, he]
      omega
    have hinn : C.Inner e := fun k => by
      have := hc k
      have := h.w0_nonneg k
      have := h.w1_nonneg k
      simp only [he]
      omega
    have hp := C.acc.pad_pos
    have h0 : ∀ k, C.Mid k (e k) := fun k => by simpa using hmid k 0 (by omega) (by omega)
    have hlap : C.lap s e = ∑ k, (derivative (derivative (P k))).eval 0 := by
      unfold Cfg.lap
      refine Finset.sum_congr rfl fun k _ => ?_
      have hpsi : C.D1 k (fun c => C.a k (c k) * s.psi k c) e = 0 := by
        unfold Cfg.D1 Dw.D1
        rw [cDiff1_congr' C.acc _ (a' := fun _ => 0)]
        · cases C.acc <;> simp [cDiff1]
        · intro x h1 h2
          simp only [Cell.shift_same]
          rw [h.a_mid k _ (hmid k x h1 h2), zero_mul]
      have hdb : C.db k (e k) = 0 := h.db_mid k _ (hmid k (-C.acc.pad) (by omega) (by omega))
        (hmid k C.acc.pad (by omega) (by omega))
      have hD2 : C.D2 k s.u e = (derivative (derivative (P k))).eval 0 := by
        obtain ⟨h1, h2, h3⟩ := hP k
        refine second_poly C.acc h1 h2 fun x hx hx' => ?_
        rw [← h3 x hx hx']
        simp only [Cfg.unpad, shift_pad]
        rfl
      rw [Cfg.tmp, hpsi, hdb, h.a_mid k _ (h0 k), h.b_mid k _ (h0 k), hD2]
      ring
    simp only [Cfg.next, Cfg.refStep, Cfg.unpad]
    change (if C.Inner e then _ else _) + inject C.src (f nt) e = _
    rw [if_pos hinn, hlap]
    simp only [inject, sourcesAt]
    ring

/-- The example configuration with step ratio 1. -/
def exS1 : Cfg 2 2 1 ℚ := { exCfgOf ℚ with ratio := 1 }

theorem exS1_wf : exS1.WF := { exCfgOf_wf ℚ with }

/-- Wavefield `x₀³`, everything else zero. -/
def exS1Init : Init 2 ℚ := ⟨some fun c => (c 0 : ℚ) ^ 3, none, fun _ => none, fun _ => none⟩

theorem exS1_start {r} (h : exS1.forward false none 0 (fun _ _ => 1) exS1Init = .ok r) :
    r.out.wfc = exS1.unpad (exS1.start exS1Init).u ∧ r.out.wfp = exS1.unpad (exS1.start exS1Init).p := by
  rw [Cfg.forward_eq exS1_wf _ _ _ _ _ (by decide) (by simp)] at h
  rw [← Except.ok.inj h]
  exact ⟨rfl, rfl⟩

/-- Non-trivial instance: from `u = x₀³` and `u_prev = 0` a step of `1/10` gives
`u = 2 · 64 + (7/2)² / 100 · 24` at `![4, 4]`, where `v = 7/2`. -/
example : ∃ r, exS1.forward true none 1 (fun _ _ => 1) exS1Init = .ok r ∧
    r.out.wfc ![4, 4] = 128 + 147 / 50 := by
  obtain ⟨r, r', h1, h2, -, h3⟩ := C61_scalar_equation exS1_wf rfl false true 0 (fun _ _ => 1) exS1Init
  refine ⟨r', h2, ?_⟩
  obtain ⟨h4, h5⟩ := exS1_start h1
  clear h1 h2
  have hu : ∀ x : ℤ, -1 ≤ x → x ≤ 1 → ∀ k, r.out.wfc (Cell.shift (d := 2) ![4, 4] k x)
      = ((Cell.shift (d := 2) ![4, 4] k x 0 : ℤ) : ℚ) ^ 3 := by
    intro x hx hx' k
    have hi : exS1.Inner fun j => Cell.shift (d := 2) ![4, 4] k x j + 1 := by
      intro j
      fin_cases k <;> fin_cases j <;> simp [exS1, exCfgOf, Acc.pad, exN, Cell.shift] <;> omega
    simp only [h4, Cfg.unpad, Cfg.start, exS1Init, Cfg.createOrPad]
    refine (if_pos hi).trans ?_
    simp
  have hs : sourcesAt exS1.src (fun _ : Fin 2 => (1 : ℚ)) exS1.acc.pad ![4, 4] = 0 := by
    simp only [sourcesAt, exS1, exCfgOf, Acc.pad]
    refine Finset.sum_eq_zero fun i _ => if_neg fun h => ?_
    split_ifs at h
    have := congrFun (Option.some.inj h) 0
    simp at this
  rw [h3 ![4, 4] (fun k => if k = 0 then (X + Polynomial.C 4) ^ 3 else Polynomial.C 64)]
  · have hv : r.out.wfp ![4, 4] = 0 := by
      simp only [h5, Cfg.unpad, Cfg.start, exS1Init, Cfg.createOrPad]
    have hc := hu 0 (by decide) (by decide) 0
    rw [Cell.shift_zero] at hc
    rw [hs, hv, hc]
    simp [exS1, exCfgOf, Acc.pad, derivative_pow]
    norm_num
  · intro k
    fin_cases k <;> simp [exS1, exCfgOf, Acc.pad, exN]
  · intro k
    refine ⟨by fin_cases k <;> simp [exS1, exCfgOf], ?_, fun x hx hx' => ?_⟩
    · fin_cases k
      · refine natDegree_pow_le.trans ?_
        rw [natDegree_X_add_C]
        decide
      · simp
    · rw [hu x hx hx']
      fin_cases k
      · simp [exS1, exCfgOf, Cell.shift_same]
        ring
      · simp [Cell.shift]
        norm_num

end Dw.Scalar

/-! ### Acoustic -/

namespace Dw.Acoustic

open Polynomial

open Dw.Scalar (inject exN)

variable {d np mp : ℕ} {nv mv : Fin d → ℕ} {R : Type*} [Field R] [CharZero R]
  {C : Cfg d np mp nv mv R}

/-- **C61** (acoustic) Outside the PML: where the pressure after `nt` steps is a polynomial along `k`, the
next step gives `v_k' = v_k - dt B_k ∂p/∂x_k + sources` with the exact derivative at the half point;
where the new velocity components are polynomials along their dimensions, it gives
`p' = p - dt K Σ ∂v_k'/∂x_k + sources`. -/
theorem C61_acoustic_equations (h : C.WF) (hr : C.ratio = 1) (gk gb gk' gb' : Bool) (nt : ℕ)
    (fp : ℕ → Fin np → R) (fv : (k : Fin d) → ℕ → Fin (nv k) → R) (w : Init d R) :
    ∃ r r', C.forward gk gb none nt fp fv w = .ok r ∧ C.forward gk' gb' none (nt + 1) fp fv w = .ok r' ∧
      (∀ (k : Fin d) (c : Cell d) (P : R[X]), C.dx k ≠ 0 → P.natDegree ≤ C.acc.order →
        (∀ j, 0 ≤ c j ∧ c j < C.n j - (2 * C.acc.pad - 1)) →
        C.w0 k ≤ c k → c k < C.n k - (2 * C.acc.pad - 1) - C.w1 k - 1 →
        Follows r.out.p c k C.acc.pad 0 (C.dx k) P →
        r'.out.v k c = r.out.v k c
          - C.dt * C.B k (fun j => c j + C.acc.pad) * (derivative P).eval (1 / 2 * C.dx k)
          + sourcesAt (C.srcV k) (fv k nt) C.acc.pad c) ∧
      ∀ (c : Cell d) (P : Fin d → R[X]),
        (∀ k, C.w0 k ≤ c k ∧ c k < C.n k - (2 * C.acc.pad - 1) - C.w1 k) →
        (∀ k, C.dx k ≠ 0 ∧ (P k).natDegree ≤ C.acc.order ∧
          Follows (r'.out.v k) c k C.acc.pad (1 / 2) (C.dx k) (P k)) →
        r'.out.p c = r.out.p c
          - C.dt * C.K (fun j => c j + C.acc.pad) * ∑ k, (derivative (P k)).eval 0
          + sourcesAt C.srcP (fp nt) C.acc.pad c := by
  refine ⟨_, _, forward_eq h gk gb none nt fp fv w (by omega) (by simp [hr]),
    forward_eq h gk' gb' none (nt + 1) fp fv w (by omega) (by simp [hr]), ?_⟩
  simp only [hr, Nat.div_one, mul_one, Cfg.unpadAll]
  set s := C.run fp fv (C.prepare w) nt with hs
  have hp := C.acc.pad_pos
  change (∀ (k : Fin d) (c : Cell d) (P : R[X]), _) ∧ ∀ (c : Cell d) (P : Fin d → R[X]), _
  have hstep : C.run fp fv (C.prepare w) (nt + 1) = C.halfP (fp nt) (C.halfV (fun k => fv k nt) s) := rfl
  rw [hstep]
  constructor
  · intro k c P hdx hP hin h1 h2 hF
    set e : Cell d := fun k => c k + C.acc.pad with he
    have hinn : C.InnerH k e := by
      refine ⟨fun j => ?_, ?_⟩
      · have := hin j
        simp only [he]
        omega
      · have := h.w1_nonneg k
        simp only [he]
        omega
    have hmid : C.MidH k (e k) := by
      simp only [Cfg.MidH, he]
      omega
    have hD : C.DH k s.p e = (derivative P).eval (1 / 2 * C.dx k) := by
      refine half_poly C.acc hdx hP fun x hx hx' => ?_
      rw [← hF x hx hx']
      simp only [Cfg.unpad, shift_pad]
      rfl
    have hg : C.gradP k s e = (derivative P).eval (1 / 2 * C.dx k) := by
      rw [Cfg.gradP, if_pos hinn, Cfg.psi', if_pos hinn, h.ah_mid k _ hmid, h.bh_mid k _ hmid, hD]
      ring
    change s.v k e - C.dt * C.B k e * C.gradP k s e + inject (C.srcV k) (fv k nt) e = _
    rw [hg]
    rfl
  · intro c P hin hP
    set e : Cell d := fun k => c k + C.acc.pad with he
    have hinn : C.Inner e := fun j => by
      have := hin j
      have := h.w0_nonneg j
      have := h.w1_nonneg j
      simp only [he]
      omega
    have hmid : ∀ k, C.Mid k (e k) := fun k => by
      have := hin k
      simp only [Cfg.Mid, he]
      omega
    have hd : C.divV (C.halfV (fun k => fv k nt) s) e = ∑ k, (derivative (P k)).eval 0 := by
      rw [Cfg.divV, if_pos hinn]
      refine Finset.sum_congr rfl fun k _ => ?_
      obtain ⟨h1, h2, h3⟩ := hP k
      have hD : C.DI k ((C.halfV (fun k => fv k nt) s).v k) e = (derivative (P k)).eval 0 := by
        refine int_poly C.acc h1 h2 fun x hx hx' => ?_
        rw [← h3 x hx hx']
        simp only [Cfg.unpad, shift_pad]
        rfl
      rw [Cfg.phi', if_pos hinn, h.a_mid k _ (hmid k), h.b_mid k _ (hmid k), hD]
      ring
    change s.p e - C.dt * C.K e * C.divV (C.halfV (fun k => fv k nt) s) e + inject C.srcP (fp nt) e = _
    rw [hd]
    rfl

/-- The example configuration with step ratio 1. -/
def exA1 : Cfg 2 2 1 (fun _ => 1) (fun _ => 1) ℚ := { exA ℚ with ratio := 1 }

theorem exA1_wf : exA1.WF := { exA_wf ℚ with }

/-- Pressure `x₀²`, everything else zero. -/
def exA1Init : Init 2 ℚ := ⟨some fun c => (c 0 : ℚ) ^ 2, fun _ => none, fun _ => none, fun _ => none⟩

theorem exA1_start {r} (h : exA1.forward false false none 0 (fun _ _ => 1) (fun _ _ _ => 1) exA1Init = .ok r) :
    r.out = exA1.unpadAll (exA1.prepare exA1Init) := by
  rw [forward_eq exA1_wf _ _ _ _ _ _ _ (by decide) (by simp)] at h
  rw [← Except.ok.inj h]
  simp [Cfg.run]

/-- Non-trivial instance: from `p = x₀²` a step of `1/10` gives `v_0 = -1/10 · 8/5 · 9` at `![4, 4]`, where
`B_0 = 8/5`. -/
example : ∃ r, exA1.forward true false none 1 (fun _ _ => 1) (fun _ _ _ => 1) exA1Init = .ok r ∧
    r.out.v 0 ![4, 4] = -36 / 25 := by
  obtain ⟨r, r', h1, h2, h3, -⟩ := C61_acoustic_equations exA1_wf rfl false false true false 0 (fun _ _ => 1)
    (fun _ _ _ => 1) exA1Init
  refine ⟨r', h2, ?_⟩
  have h4 := exA1_start h1
  clear h1 h2
  rw [h3 0 ![4, 4] ((X + Polynomial.C 4) ^ 2)]
  · have hs : sourcesAt (exA1.srcV 0) (fun _ : Fin 1 => (1 : ℚ)) exA1.acc.pad ![4, 4] = 0 := by
      simp only [sourcesAt, exA1, exA, Acc.pad]
      refine Finset.sum_eq_zero fun i _ => if_neg fun h => ?_
      have := congrFun (Option.some.inj h) 0
      simp at this
    have hv : r.out.v 0 ![4, 4] = 0 := by
      simp only [h4, Cfg.unpadAll, Cfg.unpad, Cfg.prepare, exA1Init, Cfg.createOrPad, Cfg.zeroEdge]
      split_ifs <;> rfl
    rw [hs, hv]
    simp [exA1, exA, Acc.pad, derivative_pow]
    norm_num
  · simp [exA1, exA]
  · refine natDegree_pow_le.trans ?_
    rw [natDegree_X_add_C]
    decide
  · intro j
    fin_cases j <;> simp [exA1, exA, Acc.pad, exN]
  · simp [exA1, exA, Acc.pad, exN]
  · simp [exA1, exA, Acc.pad, exN]
  · intro x hx hx'
    simp only [exA1, exA, Acc.pad] at hx hx'
    have hi : exA1.Inner fun k => Cell.shift (d := 2) ![4, 4] 0 x k + 2 := by
      intro k
      fin_cases k <;> simp [exA1, exA, Acc.pad, exN, Cell.shift] <;> omega
    simp only [h4, Cfg.unpadAll, Cfg.unpad, Cfg.prepare, exA1Init, Cfg.createOrPad]
    refine (if_pos hi).trans ?_
    simp [exA1, exA, Cell.shift_same]
    ring

end Dw.Acoustic

/-! ### Elastic -/

namespace Dw.Elastic

open Polynomial

open Dw.Scalar (inject exN)

variable {d np mp : ℕ} {nv mv : Fin d → ℕ} {R : Type*} [Field R] [CharZero R]
  {C : Cfg d np mp nv mv R}

/-- The stress component `σ_ij`: a normal stress, or the shear stress of the pair. -/
def stress (w : Wavefields d R) (i j : Fin d) : Fld d R :=
  if h : i < j then w.sh ⟨(i, j), h⟩ else if h : j < i then w.sh ⟨(j, i), h⟩ else w.s i

/-- Outside the PML along dimension `k`, for quantities at half (`b`) or integer points. -/
def outsidePml (C : Cfg d np mp nv mv R) (b : Bool) (k : Fin d) (x : ℤ) : Prop :=
  C.w0 k ≤ x ∧ x < C.n k - (2 * C.acc.pad - 1) - C.w1 k - (if b then 1 else 0)

/-- **C61** (elastic) Outside the PML: where the stresses after `nt` steps are polynomials, the next step
gives `v_i' = v_i + dt B_i Σ_j ∂σ_ij/∂x_j + sources` with the exact derivatives at the point of `v_i`;
where the new velocities are polynomials, it gives `σ_ii' = σ_ii + dt (λ Σ_k ∂v_k'/∂x_k + 2 μ ∂v_i'/∂x_i)
+ sources` and `σ_ij' = σ_ij + dt μ_ij (∂v_i'/∂x_j + ∂v_j'/∂x_i)`. -/
theorem C61_elastic_equations (h : C.WF) (hr : C.ratio = 1) (gl gm gb gl' gm' gb' : Bool) (nt : ℕ)
    (fp : ℕ → Fin np → R) (fv : (k : Fin d) → ℕ → Fin (nv k) → R) (w : Init d R)
    (hdx : ∀ k, C.dx k ≠ 0) :
    ∃ r r', C.forward gl gm gb none nt fp fv w = .ok r ∧
      C.forward gl' gm' gb' none (nt + 1) fp fv w = .ok r' ∧
      (∀ (i : Fin d) (c : Cell d) (P : Fin d → R[X]), (∀ j, (P j).natDegree ≤ C.acc.order) →
        (∀ j, outsidePml C (i == j) j (c j)) →
        (∀ j, Follows (stress r.out i j) c j C.acc.pad (off (i != j)) (C.dx j) (P j)) →
        r'.out.v i c = r.out.v i c + C.dt * C.B i (fun j => c j + C.acc.pad) *
          ∑ j, (derivative (P j)).eval (off (i == j) * C.dx j)
          + sourcesAt (C.srcV i) (fv i nt) C.acc.pad c) ∧
      (∀ (c : Cell d) (P : Fin d → R[X]), (∀ j, (P j).natDegree ≤ C.acc.order) →
        (∀ j, outsidePml C false j (c j)) →
        (∀ j, Follows (r'.out.v j) c j C.acc.pad (1 / 2) (C.dx j) (P j)) →
        ∀ i, r'.out.s i c = r.out.s i c + C.dt * (C.lam (fun j => c j + C.acc.pad) *
            ∑ k, (derivative (P k)).eval 0 + 2 * C.mu (fun j => c j + C.acc.pad) * (derivative (P i)).eval 0)
          + sourcesAt C.srcP (fp nt) C.acc.pad c) ∧
      ∀ (i j : Fin d) (hij : i < j) (c : Cell d) (P Q : R[X]), P.natDegree ≤ C.acc.order →
        Q.natDegree ≤ C.acc.order →
        (∀ k, outsidePml C (k == i || k == j) k (c k)) →
        Follows (r'.out.v i) c j C.acc.pad 0 (C.dx j) P → Follows (r'.out.v j) c i C.acc.pad 0 (C.dx i) Q →
        r'.out.sh ⟨(i, j), hij⟩ c = r.out.sh ⟨(i, j), hij⟩ c
          + C.dt * C.muS ⟨(i, j), hij⟩ (fun j => c j + C.acc.pad) *
            ((derivative P).eval (1 / 2 * C.dx j) + (derivative Q).eval (1 / 2 * C.dx i)) := by
  refine ⟨_, _, forward_eq h gl gm gb none nt fp fv w (by omega) (by simp [hr]),
    forward_eq h gl' gm' gb' none (nt + 1) fp fv w (by omega) (by simp [hr]), ?_⟩
  simp only [hr, Nat.div_one, mul_one, Cfg.unpadAll]
  set s := C.run fp fv (C.prepare w) nt with hs
  have hp := C.acc.pad_pos
  have hstep : C.run fp fv (C.prepare w) (nt + 1) = C.halfS (fp nt) (C.halfV (fun k => fv k nt) s) := rfl
  rw [hstep]
  -- stretched derivatives are plain ones outside the PML
  have key : ∀ (L : Loc d) (k : Fin d) (u m : Fld d R) (c : Cell d) (P : R[X]),
      P.natDegree ≤ C.acc.order → (∀ j, outsidePml C (L j) j (c j)) →
      Follows (C.unpad u) c k C.acc.pad (off (!L k)) (C.dx k) P →
      C.str L k u m (fun j => c j + C.acc.pad) = (derivative P).eval (off (L k) * C.dx k) := by
    intro L k u m c P hP hc hF
    set e : Cell d := fun k => c k + C.acc.pad with he
    have hinn : C.InnerAt L e := by
      refine ⟨fun j => ?_, fun j hj => ?_⟩
      · have h1 := hc j
        have := h.w0_nonneg j
        have := h.w1_nonneg j
        simp only [outsidePml] at h1
        simp only [he]
        split_ifs at h1 <;> omega
      · have h1 := hc j
        have := h.w1_nonneg j
        simp only [outsidePml, hj, if_true] at h1
        simp only [he]
        omega
    have hmid : C.MidAt (L k) k (e k) := by
      have h1 := hc k
      simp only [outsidePml] at h1
      simp only [Cfg.MidAt, he]
      split_ifs at h1 ⊢ <;> omega
    have hD : C.D (L k) k u e = (derivative P).eval (off (L k) * C.dx k) := by
      have hF' : Follows u e k C.acc.pad (off (!L k)) (C.dx k) P := fun x hx hx' => by
        rw [← hF x hx hx']
        simp only [Cfg.unpad, shift_pad]
        rfl
      unfold Cfg.D cD
      cases hL : L k
      · simp only [hL, Bool.not_false, off, if_true] at hF'
        simp only [Bool.false_eq_true, if_false, off, zero_mul]
        exact int_poly C.acc (hdx k) hP hF'
      · simp only [hL, Bool.not_true, off, Bool.false_eq_true, if_false] at hF'
        simp only [if_true, off]
        exact half_poly C.acc (hdx k) hP hF'
    rw [Cfg.str, if_pos hinn, mem'_mid h hmid, hD, add_zero]
  refine ⟨?_, ?_, ?_⟩
  · intro i c P hP hc hF
    have hdiv : C.divS s i (fun j => c j + C.acc.pad) = ∑ j, (derivative (P j)).eval (off (i == j) * C.dx j) := by
      unfold Cfg.divS
      refine Finset.sum_congr rfl fun j _ => ?_
      have hL : ∀ j, vLoc i j = (i == j) := fun j => by
        simp only [vLoc, Bool.beq_comm]
      rw [key (vLoc i) j _ _ c (P j) (hP j) (fun j => by rw [hL]; exact hc j), hL]
      rw [hL]
      have e : C.unpad (s.sig i j) = stress ⟨fun i => C.unpad (s.v i), fun i => C.unpad (s.s i),
          fun p => C.unpad (s.sh p), fun i j => C.unpad (s.mv i j), fun i j => C.unpad (s.ms i j)⟩ i j := by
        simp only [Wavefields.sig, sigOf, pick, stress]
        split_ifs <;> rfl
      rw [e]
      exact hF j
    change s.v i _ + C.B i _ * C.dt * C.divS s i _ + inject (C.srcV i) (fv i nt) _ = _
    rw [hdiv]
    simp only [inject, sourcesAt, Cfg.unpad]
    ring
  · intro c P hP hc hF i
    have hg : ∀ k, C.gradV (C.halfV (fun k => fv k nt) s) k k (fun j => c j + C.acc.pad)
        = (derivative (P k)).eval 0 := fun k => by
      unfold Cfg.gradV
      rw [sLoc_diag, key (fun _ => false) k _ _ c (P k) (hP k) hc (by exact hF k)]
      simp [off]
    change s.s i _ + C.dt * (C.lam _ * ∑ k, C.gradV (C.halfV (fun k => fv k nt) s) k k _ + 2 * C.mu _ *
      C.gradV (C.halfV (fun k => fv k nt) s) i i _) + inject C.srcP (fp nt) _ = _
    simp only [hg]
    rfl
  · intro i j hij c P Q hP hQ hc hF hG
    have hL : ∀ k, sLoc i j k = (k == i || k == j) := fun k => by
      simp only [sLoc]
      by_cases h1 : k = i
      · subst h1
        simp [hij.ne]
      · rw [beq_false_of_ne h1]
        cases (k == j) <;> rfl
    have hl : sLoc i j j = true := by simp [hL]
    have hl' : sLoc j i i = true := by rw [sLoc_comm]; simp [hL]
    have h1 : C.gradV (C.halfV (fun k => fv k nt) s) i j (fun j => c j + C.acc.pad)
        = (derivative P).eval (1 / 2 * C.dx j) := by
      unfold Cfg.gradV
      rw [key (sLoc i j) j _ _ c P hP (fun j => by rw [hL]; exact hc j) (by rw [hl]; exact hF), hl]
      rfl
    have h2 : C.gradV (C.halfV (fun k => fv k nt) s) j i (fun j => c j + C.acc.pad)
        = (derivative Q).eval (1 / 2 * C.dx i) := by
      unfold Cfg.gradV
      rw [key (sLoc j i) i _ _ c Q hQ (fun k => by rw [sLoc_comm, hL]; exact hc k)
        (by rw [hl']; exact hG), hl']
      rfl
    change s.sh _ _ + C.dt * C.muS _ _ * (C.gradV (C.halfV (fun k => fv k nt) s) i j _ +
      C.gradV (C.halfV (fun k => fv k nt) s) j i _) = _
    rw [h1, h2]
    rfl

/-- The example configuration with step ratio 1. -/
def exE1 : Cfg 2 2 1 (fun _ => 1) (fun _ => 1) ℚ := { exE ℚ with ratio := 1 }

theorem exE1_wf : exE1.WF := { exE_wf ℚ with }

/-- Normal stress `σ_00 = x₀²`, everything else zero. -/
def exE1Init : Init 2 ℚ :=
  ⟨fun _ => none, fun i => if i = 0 then some fun c => (c 0 : ℚ) ^ 2 else none, fun _ => none,
    fun _ _ => none, fun _ _ => none⟩

theorem exE1_start {r}
    (h : exE1.forward false false false none 0 (fun _ _ => 1) (fun _ _ _ => 1) exE1Init = .ok r) :
    r.out = exE1.unpadAll (exE1.prepare exE1Init) := by
  rw [forward_eq exE1_wf _ _ _ _ _ _ _ _ (by decide) (by simp)] at h
  rw [← Except.ok.inj h]
  simp [Cfg.run]

/-- Non-trivial instance: from `σ_00 = x₀²` a step of `1/10` gives `v_0 = 1/10 · 8/5 · 9` at `![4, 4]`,
where `B_0 = 8/5`. -/
example : ∃ r, exE1.forward true false true none 1 (fun _ _ => 1) (fun _ _ _ => 1) exE1Init = .ok r ∧
    r.out.v 0 ![4, 4] = 36 / 25 := by
  obtain ⟨r, r', h1, h2, h3, -⟩ := C61_elastic_equations exE1_wf rfl false false false true false true 0
    (fun _ _ => 1) (fun _ _ _ => 1) exE1Init (by intro k; fin_cases k <;> simp [exE1, exE])
  refine ⟨r', h2, ?_⟩
  have h4 := exE1_start h1
  clear h1 h2
  rw [h3 0 ![4, 4] (fun j => if j = 0 then (X + Polynomial.C 4) ^ 2 else 0)]
  · have hs : sourcesAt (exE1.srcV 0) (fun _ : Fin 1 => (1 : ℚ)) exE1.acc.pad ![4, 4] = 0 := by
      simp only [sourcesAt, exE1, exE, Acc.pad]
      refine Finset.sum_eq_zero fun i _ => if_neg fun h => ?_
      have := congrFun (Option.some.inj h) 0
      simp at this
    have hv : r.out.v 0 ![4, 4] = 0 := by
      simp [h4, Cfg.unpadAll, Cfg.unpad, Cfg.prepare, exE1Init, Cfg.createOrPad, Cfg.zeroEdges,
        ite_self]
    rw [hs, hv]
    simp [exE1, exE, Acc.pad, derivative_pow, off]
    norm_num
  · intro j
    fin_cases j
    · refine natDegree_pow_le.trans ?_
      rw [natDegree_X_add_C]
      decide
    · simp
  · intro j
    fin_cases j <;> simp [exE1, exE, Acc.pad, exN, outsidePml]
  · intro j x hx hx'
    simp only [exE1, exE, Acc.pad] at hx hx'
    fin_cases j
    · have hi : exE1.Inner fun k => Cell.shift (d := 2) ![4, 4] 0 x k + 2 := by
        intro k
        fin_cases k <;> simp [exE1, exE, Acc.pad, exN, Cell.shift] <;> omega
      simp only [h4, Cfg.unpadAll, Cfg.unpad, Cfg.prepare, exE1Init, Cfg.createOrPad, stress]
      simp
      refine (if_pos hi).trans ?_
      simp [exE1, exE, Cell.shift_same, off]
      ring
    · simp [h4, Cfg.unpadAll, Cfg.unpad, Cfg.prepare, exE1Init, Cfg.createOrPad, stress, Cfg.zeroEdges]

end Dw.Elastic
