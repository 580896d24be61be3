import Verif.Elastic.Energy
import Verif.Acoustic.Reciprocity

/-!
# Two runs of the elastic propagator without PML
-/

namespace Dw.Elastic

open Dw.Scalar (inject sample)
open Dw.Acoustic (dot_inject_left inject_mul)

variable {d np mp : ℕ} {nv mv : Fin d → ℕ}

/-- Scaling of the pressure source amplitudes (`elastic.py` 971-976): by `-dt`. -/
def Cfg.scaleP (C : Cfg d np mp nv mv ℝ) (f : ℕ → Fin np → ℝ) : ℕ → Fin np → ℝ := fun t i =>
  -f t i * C.dt

/-- Scaling of the amplitudes of the sources of velocity component `k` (`elastic.py` 923-970): by
`B_k dt` at the source cell; ignored sources read the model at cell 0. -/
def Cfg.scaleV (C : Cfg d np mp nv mv ℝ) (f : (k : Fin d) → ℕ → Fin (nv k) → ℝ) :
    (k : Fin d) → ℕ → Fin (nv k) → ℝ := fun k t i =>
  f k t i * C.B k ((C.srcV k i).getD fun _ => 0) * C.dt

/-- The survey with sources and receivers exchanged. -/
def Cfg.exchanged (C : Cfg d np mp nv mv ℝ) : Cfg d mp np mv nv ℝ where
  acc := C.acc
  n := C.n
  w0 := C.w0
  w1 := C.w1
  dx := C.dx
  dt := C.dt
  a := C.a
  b := C.b
  ah := C.ah
  bh := C.bh
  lam := C.lam
  mu := C.mu
  muS := C.muS
  B := C.B
  srcP := C.rcvP
  srcV := C.rcvV
  rcvP := C.srcP
  rcvV := C.srcV
  ratio := C.ratio

variable {C : Cfg d np mp nv mv ℝ}

theorem Cfg.WF.exchanged (h : C.WF) : C.exchanged.WF where
  w0_nonneg := h.w0_nonneg
  w1_nonneg := h.w1_nonneg
  size := h.size
  pa_mid := h.pa_mid
  pb_mid := h.pb_mid
  srcP_in := h.rcvP_in
  srcV_in := h.rcvV_in
  rcvP_in := h.srcP_in
  rcvV_in := h.srcV_in

/-- Stresses or strains. -/
abbrev Tens (d : ℕ) := (Fin d → Fld d ℝ) × (Sh d → Fld d ℝ)

/-- The quantities of a run. -/
noncomputable def Cfg.leap (C : Cfg d np mp nv mv ℝ) (f : ℕ → Fin np → ℝ)
    (fv : (k : Fin d) → ℕ → Fin (nv k) → ℝ) (w : Wavefields d ℝ) : Leap (Tens d) (Fin d → Fld d ℝ) :=
  let run := C.run (C.scaleP f) (C.scaleV fv) w
  let e : ℕ → Tens d := fun n => (fun i c => C.gradV (run (n + 1)) i i c,
    fun p c => C.gradV (run (n + 1)) p.1.1 p.1.2 c + C.gradV (run (n + 1)) p.1.2 p.1.1 c)
  let g : ℕ → Fin d → Fld d ℝ := fun n i c => C.divS (run n) i c
  let s : ℕ → Tens d := fun n => (fun _ c => -inject C.srcP (f n) c / (d * C.lam c + 2 * C.mu c), 0)
  let q : ℕ → Fin d → Fld d ℝ := fun n k => inject (C.srcV k) (fv k n)
  { x := fun n => ((run n).s, (run n).sh)
    xt := fun n => ∑ j ∈ Finset.range n, (e j + s j)
    y := fun n => (run n).v
    yt := fun n => ∑ j ∈ Finset.range n, (g j + q j)
    e := e
    g := g
    s := s
    f := q }

theorem leap_run (f : ℕ → Fin np → ℝ) (fv : (k : Fin d) → ℕ → Fin (nv k) → ℝ) (w : Wavefields d ℝ) :
    (C.leap f fv w).Run where
  x_zero := rfl
  y_zero := rfl
  x_succ := fun n => by
    simp only [Cfg.leap]; rw [Finset.sum_range_succ, add_assoc]
  y_succ := fun n => by
    simp only [Cfg.leap]; rw [Finset.sum_range_succ, add_assoc]

theorem gradV_halfV (hn : C.NoPml) (qp : Fin np → ℝ) (qv : (k : Fin d) → Fin (nv k) → ℝ)
    (w : Wavefields d ℝ) (i j : Fin d) (c : Cell d) :
    C.gradV (C.halfV qv w) i j c = C.gradV (C.next qp qv w) i j c := by
  simp only [Cfg.gradV, str_nopml hn]
  rfl

theorem inject_neg_mul {m : ℕ} {loc : Fin m → Option (Cell d)} (z : ℝ) (q : Fin m → ℝ) (c : Cell d) :
    inject loc (fun i => -q i * z) c = -(z * inject loc q c) := by
  simp only [inject, Finset.mul_sum, ← Finset.sum_neg_distrib]
  refine Finset.sum_congr rfl fun i _ => ?_
  split_ifs <;> ring

theorem inject_eq_zero {m : ℕ} {loc : Fin m → Option (Cell d)} (q : Fin m → ℝ) (c : Cell d)
    (hc : ∀ i, loc i ≠ some c) : inject loc q c = 0 := by
  simp [inject, hc]

theorem leap_x (hn : C.NoPml) (hk : ∀ i c, C.srcP i = some c → d * C.lam c + 2 * C.mu c ≠ 0)
    (f : ℕ → Fin np → ℝ) (fv : (k : Fin d) → ℕ → Fin (nv k) → ℝ)
    {w : Wavefields d ℝ} (hs : w.s = 0) (hsh : w.sh = 0) (n : ℕ) :
    (∀ i c, ((C.leap f fv w).x n).1 i c = C.dt * (C.lam c * ∑ k, ((C.leap f fv w).xt n).1 k c
      + 2 * C.mu c * ((C.leap f fv w).xt n).1 i c)) ∧
    ∀ p c, ((C.leap f fv w).x n).2 p c = C.dt * C.muS p c * ((C.leap f fv w).xt n).2 p c := by
  induction n with
  | zero => exact ⟨fun i c => by simp [Cfg.leap, Cfg.run, hs], fun p c => by simp [Cfg.leap, Cfg.run, hsh]⟩
  | succ n ih =>
      set run := C.run (C.scaleP f) (C.scaleV fv) w with hrun
      have hg : ∀ i j c, C.gradV (C.halfV (fun k => C.scaleV fv k n) (run n)) i j c =
          C.gradV (run (n + 1)) i j c := fun i j c => gradV_halfV hn _ _ _ i j c
      refine ⟨fun i c => ?_, fun p c => ?_⟩
      · have e0 : ((C.leap f fv w).x (n + 1)).1 i c = ((C.leap f fv w).x n).1 i c + C.dt *
            (C.lam c * ∑ k, C.gradV (run (n + 1)) k k c + 2 * C.mu c * C.gradV (run (n + 1)) i i c)
            - C.dt * inject C.srcP (f n) c := by
          change (C.halfS (C.scaleP f n) (C.halfV (fun k => C.scaleV fv k n) (run n))).s i c = _
          have hi := inject_neg_mul (loc := C.srcP) C.dt (f n) c
          simp only [Cfg.halfS, hg]
          change _ + inject C.srcP (fun i => -f n i * C.dt) c = _
          rw [hi, sub_eq_add_neg]
          rfl
        have ex : ∀ k, ((C.leap f fv w).xt (n + 1)).1 k c = ((C.leap f fv w).xt n).1 k c
            + C.gradV (run (n + 1)) k k c - inject C.srcP (f n) c / (d * C.lam c + 2 * C.mu c) := by
          intro k
          rw [(leap_run f fv w).x_succ]
          simp only [Prod.fst_add, Pi.add_apply]
          have : ((C.leap f fv w).s n).1 k c =
            -inject C.srcP (f n) c / (d * C.lam c + 2 * C.mu c) := rfl
          rw [this, neg_div, ← sub_eq_add_neg]
          rfl
        rw [e0, ih.1]
        simp only [ex, Finset.sum_sub_distrib, Finset.sum_add_distrib, Finset.sum_const,
          Finset.card_univ, Fintype.card_fin, nsmul_eq_mul]
        have hz : inject C.srcP (f n) c =
            inject C.srcP (f n) c / (d * C.lam c + 2 * C.mu c) * (d * C.lam c + 2 * C.mu c) := by
          by_cases hc : ∃ i, C.srcP i = some c
          · obtain ⟨i, hi⟩ := hc
            rw [div_mul_cancel₀ _ (hk i c hi)]
          · rw [inject_eq_zero _ _ fun i hi => hc ⟨i, hi⟩, zero_div, zero_mul]
        linear_combination -C.dt * hz
      · have e0 : ((C.leap f fv w).x (n + 1)).2 p c = ((C.leap f fv w).x n).2 p c + C.dt * C.muS p c *
            (C.gradV (run (n + 1)) p.1.1 p.1.2 c + C.gradV (run (n + 1)) p.1.2 p.1.1 c) := by
          change (C.halfS (C.scaleP f n) (C.halfV (fun k => C.scaleV fv k n) (run n))).sh p c = _
          simp only [Cfg.halfS, hg]
          rfl
        have ex : ((C.leap f fv w).xt (n + 1)).2 p c = ((C.leap f fv w).xt n).2 p c
            + (C.gradV (run (n + 1)) p.1.1 p.1.2 c + C.gradV (run (n + 1)) p.1.2 p.1.1 c) := by
          rw [(leap_run f fv w).x_succ]
          simp only [Prod.snd_add, Pi.add_apply]
          have : ((C.leap f fv w).s n).2 p c = 0 := rfl
          rw [this, add_zero]
          rfl
        rw [e0, ih.2, ex]
        ring

theorem leap_y (f : ℕ → Fin np → ℝ) (fv : (k : Fin d) → ℕ → Fin (nv k) → ℝ)
    {w : Wavefields d ℝ} (hv : w.v = 0) (n : ℕ) (k : Fin d) (c : Cell d) :
    (C.leap f fv w).y n k c = C.dt * C.B k c * (C.leap f fv w).yt n k c := by
  induction n with
  | zero => simp [Cfg.leap, Cfg.run, hv]
  | succ n ih =>
      rw [(leap_run f fv w).y_succ]
      have e0 : (C.leap f fv w).y (n + 1) k c = (C.leap f fv w).y n k c
          + C.dt * C.B k c * (C.leap f fv w).g n k c + C.dt * C.B k c * (C.leap f fv w).f n k c := by
        have hi := inject_mul (loc := C.srcV k) (C.B k) C.dt (fv k n) c
        change (C.halfV (fun k => C.scaleV fv k n) (C.run (C.scaleP f) (C.scaleV fv) w n)).v k c = _
        simp only [Cfg.halfV]
        change _ + _ + inject (C.srcV k) (fun i => fv k n i * _ * _) c = _
        rw [hi]
        simp only [Cfg.leap]
        ring
      rw [e0, ih]
      simp only [Pi.add_apply]
      ring

/-- The pairing of stress and strain. -/
noncomputable def Cfg.bT (C : Cfg d np mp nv mv ℝ) (x z : Tens d) : ℝ :=
  ∑ c ∈ C.S, ∑ i, x.1 i c * z.1 i c + ∑ p, ∑ c ∈ C.S, x.2 p c * z.2 p c

theorem bT_sym {x z x' z' : Tens d}
    (h1 : ∀ i c, x.1 i c = C.dt * (C.lam c * ∑ k, x'.1 k c + 2 * C.mu c * x'.1 i c))
    (h2 : ∀ p c, x.2 p c = C.dt * C.muS p c * x'.2 p c)
    (h3 : ∀ i c, z.1 i c = C.dt * (C.lam c * ∑ k, z'.1 k c + 2 * C.mu c * z'.1 i c))
    (h4 : ∀ p c, z.2 p c = C.dt * C.muS p c * z'.2 p c) : C.bT x' z = C.bT z' x := by
  unfold Cfg.bT
  congr 1
  · refine Finset.sum_congr rfl fun c _ => ?_
    simp only [h1, h3, mul_add, Finset.sum_add_distrib]
    congr 1
    · rw [← Finset.sum_mul, ← Finset.sum_mul]; ring
    · exact Finset.sum_congr rfl fun i _ => by ring
  · refine Finset.sum_congr rfl fun p _ => Finset.sum_congr rfl fun c _ => ?_
    rw [h2, h4]; ring

/-- Reciprocity of two runs of the recursion. -/
theorem run_reciprocity (h : C.WF) (hn : C.NoPml)
    (hk : ∀ i c, C.srcP i = some c → d * C.lam c + 2 * C.mu c ≠ 0)
    (hk' : ∀ i c, C.rcvP i = some c → d * C.lam c + 2 * C.mu c ≠ 0)
    (f : ℕ → Fin np → ℝ) (fv : (k : Fin d) → ℕ → Fin (nv k) → ℝ)
    (g : ℕ → Fin mp → ℝ) (gv : (k : Fin d) → ℕ → Fin (mv k) → ℝ) {w : Wavefields d ℝ} (hw : C.Good w)
    (hv : w.v = 0) (hs : w.s = 0) (hsh : w.sh = 0) (T : ℕ) :
    let A := C.run (C.scaleP f) (C.scaleV fv) w
    let B := C.exchanged.run (C.exchanged.scaleP g) (C.exchanged.scaleV gv) w
    let M : Fld d ℝ := fun c => (d * C.lam c + 2 * C.mu c)⁻¹
    ∑ t ∈ Finset.range T,
        (-∑ i, f t i * sample C.srcP (fun c => M c * (B (T - 1 - t)).prs c) i -
        ∑ k, ∑ i, fv k t i * sample (C.srcV k) ((B (T - t)).v k) i) =
      ∑ t ∈ Finset.range T,
        (-∑ i, g t i * sample C.rcvP (fun c => M c * (A (T - 1 - t)).prs c) i -
        ∑ k, ∑ i, gv k t i * sample (C.rcvV k) ((A (T - t)).v k) i) := by
  intro A B M
  have hn' : C.exchanged.NoPml := hn
  have gA : ∀ n, C.Good (A n) := run_good h _ _ hw
  have gB' : ∀ n, C.exchanged.Good (B n) :=
    run_good h.exchanged _ _ ⟨hw.v, hw.s, hw.sh, hw.mv, hw.ms, hw.mv_mid, hw.ms_mid⟩
  have gB : ∀ n, C.Good (B n) := fun n =>
    ⟨(gB' n).v, (gB' n).s, (gB' n).sh, (gB' n).mv, (gB' n).ms, (gB' n).mv_mid, (gB' n).ms_mid⟩
  have sk : ∀ {w w' : Wavefields d ℝ}, C.Good w → C.Good w' →
      C.bT (fun i c => C.gradV w' i i c, fun p c => C.gradV w' p.1.1 p.1.2 c + C.gradV w' p.1.2 p.1.1 c)
        (w.s, w.sh) = -∑ k, dot C.S (fun c => C.divS w k c) (w'.v k) := by
    intro w w' h1 h2
    have e := sum_by_parts hn h1 h2
    have e2 : ∑ k, dot C.S (fun c => C.divS w k c) (w'.v k) =
        ∑ i, ∑ c ∈ C.S, w'.v i c * C.divS w i c :=
      Finset.sum_congr rfl fun k _ => Finset.sum_congr rfl fun c _ => mul_comm _ _
    rw [e2, e, neg_neg]
    rfl
  have xA := leap_x hn hk f fv hs hsh
  have xB := leap_x (C := C.exchanged) hn' hk' g gv hs hsh
  have main := Leap.reciprocity (leap_run (C := C) f fv w) (leap_run (C := C.exchanged) g gv w)
    C.bT (fun y z => ∑ k, dot C.S (y k) (z k))
    (fun x x' z => by
      simp only [Cfg.bT, Prod.fst_add, Prod.snd_add, Pi.add_apply, add_mul, Finset.sum_add_distrib]
      ring)
    (fun z => by simp [Cfg.bT])
    (fun y y' z => by
      rw [← Finset.sum_add_distrib]
      exact Finset.sum_congr rfl fun k _ => dot_add_left _ _ _ _)
    (fun z => by simp [dot])
    (fun m n => bT_sym (xA m).1 (xA m).2 (xB n).1 (xB n).2)
    (fun m n => by
      simp only [dot, leap_y f fv hv, leap_y (C := C.exchanged) g gv hv]
      exact Finset.sum_congr rfl fun k _ => Finset.sum_congr rfl fun c _ => by
        change _ * (C.dt * C.B k c * _) = _ * (C.dt * C.B k c * _); ring)
    (fun m n => sk (gB n) (gA (m + 1)))
    (fun m n => sk (gA n) (gB (m + 1))) T
  have src : ∀ {m : ℕ} (loc : Fin m → Option (Cell d)) (q : Fin m → ℝ) (w : Wavefields d ℝ),
      (∀ i c, loc i = some c → C.Inner c) →
      C.bT (fun _ c => -inject loc q c / (d * C.lam c + 2 * C.mu c), 0) (w.s, w.sh) =
        -∑ i, q i * sample loc (fun c => M c * w.prs c) i := by
    intro m loc q w hl
    rw [← dot_inject_left (fun i c hi => Cfg.mem_S.2 (hl i c hi))]
    simp only [Cfg.bT, Pi.zero_apply, zero_mul, Finset.sum_const_zero, add_zero, dot,
      ← Finset.sum_neg_distrib]
    refine Finset.sum_congr rfl fun c _ => ?_
    rw [← Finset.mul_sum, Wavefields.prs]
    simp only [M]
    ring
  have s1 : ∀ t n, C.bT ((C.leap f fv w).s t) ((C.exchanged.leap g gv w).x n) =
      -∑ i, f t i * sample C.srcP (fun c => M c * (B n).prs c) i := fun t n => src _ _ _ h.srcP_in
  have s2 : ∀ t n k, dot C.S ((C.leap f fv w).f t k) ((C.exchanged.leap g gv w).y n k) =
      ∑ i, fv k t i * sample (C.srcV k) ((B n).v k) i := fun t n k =>
    dot_inject_left (fun i c hi => Cfg.mem_S.2 (h.srcV_in k i c hi).1) _ _
  have s3 : ∀ t n, C.bT ((C.exchanged.leap g gv w).s t) ((C.leap f fv w).x n) =
      -∑ i, g t i * sample C.rcvP (fun c => M c * (A n).prs c) i := fun t n => src _ _ _ h.rcvP_in
  have s4 : ∀ t n k, dot C.S ((C.exchanged.leap g gv w).f t k) ((C.leap f fv w).y n k) =
      ∑ i, gv k t i * sample (C.rcvV k) ((A n).v k) i := fun t n k =>
    dot_inject_left (fun i c hi => Cfg.mem_S.2 (h.rcvV_in k i c hi).1) _ _
  simp only [s1, s2, s3, s4] at main
  exact main

end Dw.Elastic
