import Verif.Acoustic.Adjoint
import Verif.Acoustic.Linear
import Verif.Core.Reciprocity

/-!
# Two runs of the acoustic propagator without PML
-/

namespace Dw.Acoustic

open Dw.Scalar (inject sample)

variable {d np mp : ℕ} {nv mv : Fin d → ℕ} {R : Type*} [Field R]

/-- Scaling of the pressure source amplitudes (`acoustic.py` 561-585): by `K dt` at the source cell;
ignored sources read the model at cell 0. -/
def Cfg.scaleP (C : Cfg d np mp nv mv R) (f : ℕ → Fin np → R) : ℕ → Fin np → R := fun t i =>
  f t i * C.K ((C.srcP i).getD fun _ => 0) * C.dt

/-- Scaling of the amplitudes of the sources of velocity component `k` (`acoustic.py` 561-585): by
`B_k dt`. -/
def Cfg.scaleV (C : Cfg d np mp nv mv R) (f : (k : Fin d) → ℕ → Fin (nv k) → R) :
    (k : Fin d) → ℕ → Fin (nv k) → R := fun k t i =>
  f k t i * C.B k ((C.srcV k i).getD fun _ => 0) * C.dt

/-- The survey with sources and receivers exchanged. -/
def Cfg.exchanged (C : Cfg d np mp nv mv R) : Cfg d mp np mv nv R where
  acc := C.acc
  n := C.n
  w0 := C.w0
  w1 := C.w1
  dx := C.dx
  dt := C.dt
  a := C.a
  b := C.b
  ah := C.ah
  bh := C.bh
  K := C.K
  B := C.B
  srcP := C.rcvP
  srcV := C.rcvV
  rcvP := C.srcP
  rcvV := C.srcV
  ratio := C.ratio

theorem inject_mul {m : ℕ} {loc : Fin m → Option (Cell d)} (M : Fld d R) (z : R) (q : Fin m → R)
    (c : Cell d) :
    inject loc (fun i => q i * M ((loc i).getD fun _ => 0) * z) c = z * M c * inject loc q c := by
  simp only [inject, Finset.mul_sum]
  refine Finset.sum_congr rfl fun i _ => ?_
  split_ifs with hi
  · rw [hi, Option.getD_some]; ring
  · ring

variable {C : Cfg d np mp nv mv R}

theorem Cfg.WF.exchanged (h : C.WF) : C.exchanged.WF where
  w0_nonneg := h.w0_nonneg
  w1_nonneg := h.w1_nonneg
  size := h.size
  a_mid := h.a_mid
  b_mid := h.b_mid
  ah_mid := h.ah_mid
  bh_mid := h.bh_mid
  srcP_in := h.rcvP_in
  srcV_in := h.rcvV_in
  rcvP_in := h.srcP_in
  rcvV_in := h.srcV_in

/-- The quantities of a run. -/
def Cfg.leap (C : Cfg d np mp nv mv R) (f : ℕ → Fin np → R) (fv : (k : Fin d) → ℕ → Fin (nv k) → R)
    (w : Wavefields d R) : Leap (Fld d R) (Fin d → Fld d R) :=
  let run := C.run (C.scaleP f) (C.scaleV fv) w
  let e : ℕ → Fld d R := fun n c => if C.Inner c then -∑ k, C.DI k ((run (n + 1)).v k) c else 0
  let g : ℕ → Fin d → Fld d R := fun n k c => if C.InnerH k c then -C.DH k (run n).p c else 0
  let s : ℕ → Fld d R := fun n => inject C.srcP (f n)
  let q : ℕ → Fin d → Fld d R := fun n k => inject (C.srcV k) (fv k n)
  { x := fun n => (run n).p
    xt := fun n => ∑ j ∈ Finset.range n, (e j + s j)
    y := fun n => (run n).v
    yt := fun n => ∑ j ∈ Finset.range n, (g j + q j)
    e := e
    g := g
    s := s
    f := q }

theorem leap_run (f : ℕ → Fin np → R) (fv : (k : Fin d) → ℕ → Fin (nv k) → R) (w : Wavefields d R) :
    (C.leap f fv w).Run where
  x_zero := rfl
  y_zero := rfl
  x_succ := fun n => by
    simp only [Cfg.leap]; rw [Finset.sum_range_succ, add_assoc]
  y_succ := fun n => by
    simp only [Cfg.leap]; rw [Finset.sum_range_succ, add_assoc]

theorem leap_x (hn : ∀ k x, C.a k x = 0 ∧ C.b k x = 0 ∧ C.ah k x = 0 ∧ C.bh k x = 0)
    (f : ℕ → Fin np → R) (fv : (k : Fin d) → ℕ → Fin (nv k) → R)
    {w : Wavefields d R} (hp : w.p = 0) (n : ℕ) (c : Cell d) :
    (C.leap f fv w).x n c = C.dt * C.K c * (C.leap f fv w).xt n c := by
  induction n with
  | zero => simp [Cfg.leap, Cfg.run, hp]
  | succ n ih =>
      rw [(leap_run f fv w).x_succ]
      have e0 : (C.leap f fv w).x (n + 1) c = (C.leap f fv w).x n c
          + C.dt * C.K c * (C.leap f fv w).e n c + C.dt * C.K c * (C.leap f fv w).s n c := by
        have hd : ∀ s : Wavefields d R, C.divV s c = if C.Inner c then ∑ k, C.DI k (s.v k) c else 0 := by
          intro s
          unfold Cfg.divV
          split_ifs with hc
          · refine Finset.sum_congr rfl fun k _ => ?_
            simp [Cfg.phi', hc, (hn k (c k)).1, (hn k (c k)).2.1]
          · rfl
        have hi := inject_mul (loc := C.srcP) C.K C.dt (f n) c
        change (C.halfP _ (C.halfV _ _)).p c = _
        simp only [Cfg.halfP, hd]
        change _ - _ + inject C.srcP (fun i => f n i * _ * _) c = _
        rw [hi]
        simp only [Cfg.leap, Cfg.run, Cfg.next, Cfg.halfP, Cfg.halfV]
        split_ifs <;> ring
      rw [e0, ih]
      simp only [Pi.add_apply]
      ring

theorem leap_y (hn : ∀ k x, C.a k x = 0 ∧ C.b k x = 0 ∧ C.ah k x = 0 ∧ C.bh k x = 0)
    (f : ℕ → Fin np → R) (fv : (k : Fin d) → ℕ → Fin (nv k) → R)
    {w : Wavefields d R} (hv : w.v = 0) (n : ℕ) (k : Fin d) (c : Cell d) :
    (C.leap f fv w).y n k c = C.dt * C.B k c * (C.leap f fv w).yt n k c := by
  induction n with
  | zero => simp [Cfg.leap, Cfg.run, hv]
  | succ n ih =>
      rw [(leap_run f fv w).y_succ]
      have e0 : (C.leap f fv w).y (n + 1) k c = (C.leap f fv w).y n k c
          + C.dt * C.B k c * (C.leap f fv w).g n k c + C.dt * C.B k c * (C.leap f fv w).f n k c := by
        have hi := inject_mul (loc := C.srcV k) (C.B k) C.dt (fv k n) c
        change (C.halfV (fun k => C.scaleV fv k n) (C.run (C.scaleP f) (C.scaleV fv) w n)).v k c = _
        simp only [Cfg.halfV, Cfg.gradP, Cfg.psi']
        change _ - _ + inject (C.srcV k) (fun i => fv k n i * _ * _) c = _
        rw [hi]
        simp only [Cfg.leap, (hn k (c k)).2.2.1, (hn k (c k)).2.2.2]
        split_ifs <;> ring
      rw [e0, ih]
      simp only [Pi.add_apply]
      ring

/-- Reciprocity of two runs of the recursion. -/
theorem run_reciprocity (h : C.WF)
    (hn : ∀ k x, C.a k x = 0 ∧ C.b k x = 0 ∧ C.ah k x = 0 ∧ C.bh k x = 0)
    (f : ℕ → Fin np → R) (fv : (k : Fin d) → ℕ → Fin (nv k) → R)
    (g : ℕ → Fin mp → R) (gv : (k : Fin d) → ℕ → Fin (mv k) → R) {w : Wavefields d R} (hw : C.Good w)
    (hp : w.p = 0) (hv : w.v = 0) (T : ℕ) :
    let A := C.run (C.scaleP f) (C.scaleV fv) w
    let B := C.exchanged.run (C.exchanged.scaleP g) (C.exchanged.scaleV gv) w
    ∑ t ∈ Finset.range T, (∑ i, f t i * sample C.srcP (B (T - 1 - t)).p i -
        ∑ k, ∑ i, fv k t i * sample (C.srcV k) ((B (T - t)).v k) i) =
      ∑ t ∈ Finset.range T, (∑ i, g t i * sample C.rcvP (A (T - 1 - t)).p i -
        ∑ k, ∑ i, gv k t i * sample (C.rcvV k) ((A (T - t)).v k) i) := by
  intro A B
  have hn' : ∀ k x, C.exchanged.a k x = 0 ∧ C.exchanged.b k x = 0 ∧ C.exchanged.ah k x = 0 ∧
    C.exchanged.bh k x = 0 := hn
  have gA : ∀ n, C.Good (A n) := run_good h _ _ hw
  have gB' : ∀ n, C.exchanged.Good (B n) :=
    run_good h.exchanged _ _ ⟨hw.p, hw.v, hw.phi, hw.psi, hw.phi_mid, hw.psi_mid⟩
  have gB : ∀ n, C.Good (B n) := fun n =>
    ⟨(gB' n).p, (gB' n).v, (gB' n).phi, (gB' n).psi, (gB' n).phi_mid, (gB' n).psi_mid⟩
  have sk : ∀ (p : Fld d R) (v : Fin d → Fld d R), (∀ c, ¬C.Inner c → p c = 0) →
      (∀ k c, ¬C.InnerH k c → v k c = 0) →
      dot C.S (fun c => if C.Inner c then -∑ k, C.DI k (v k) c else 0) p =
      -∑ k, dot C.S (fun c => if C.InnerH k c then -C.DH k p c else 0) (v k) := by
    intro p v h1 h2
    have e1 : dot C.S (fun c => if C.Inner c then -∑ k, C.DI k (v k) c else 0) p =
        -∑ k, dot C.S (C.DI k (v k)) p := by
      simp only [dot]
      rw [Finset.sum_comm, ← Finset.sum_neg_distrib]
      refine Finset.sum_congr rfl fun c hc => ?_
      rw [if_pos (Cfg.mem_S.1 hc), ← Finset.sum_mul, neg_mul]
    rw [e1]
    congr 1
    refine Finset.sum_congr rfl fun k _ => ?_
    have e2 := dot_DS (suppH_of (h2 k)) (supp_of h1) C.acc (1 / C.dx k) k
    rw [Cfg.DI, e2]
    simp only [dot, ← Finset.sum_neg_distrib]
    refine Finset.sum_congr rfl fun c _ => ?_
    by_cases hc : C.InnerH k c
    · simp only [hc, if_true, Cfg.DH]; ring
    · simp [hc, h2 k c hc]
  have main := Leap.reciprocity (leap_run (C := C) f fv w) (leap_run (C := C.exchanged) g gv w)
    (fun x z => dot C.S x z) (fun y z => ∑ k, dot C.S (y k) (z k))
    (fun x x' z => dot_add_left _ _ _ _) (fun z => by simp [dot])
    (fun y y' z => by
      rw [← Finset.sum_add_distrib]
      exact Finset.sum_congr rfl fun k _ => dot_add_left _ _ _ _)
    (fun z => by simp [dot])
    (fun m n => by
      simp only [dot, leap_x hn f fv hp, leap_x hn' g gv hp]
      exact Finset.sum_congr rfl fun c _ => by
        change _ * (C.dt * C.K c * _) = _ * (C.dt * C.K c * _); ring)
    (fun m n => by
      simp only [dot, leap_y hn f fv hv, leap_y hn' g gv hv]
      exact Finset.sum_congr rfl fun k _ => Finset.sum_congr rfl fun c _ => by
        change _ * (C.dt * C.B k c * _) = _ * (C.dt * C.B k c * _); ring)
    (fun m n => sk _ _ (gB n).p (gA (m + 1)).v)
    (fun m n => sk _ _ (gA n).p (gB (m + 1)).v) T
  have s1 : ∀ t n, dot C.S ((C.leap f fv w).s t) ((C.exchanged.leap g gv w).x n) =
      ∑ i, f t i * sample C.srcP (B n).p i := fun t n =>
    dot_inject_left (fun i c hi => Cfg.mem_S.2 (h.srcP_in i c hi)) _ _
  have s2 : ∀ t n k, dot C.S ((C.leap f fv w).f t k) ((C.exchanged.leap g gv w).y n k) =
      ∑ i, fv k t i * sample (C.srcV k) ((B n).v k) i := fun t n k =>
    dot_inject_left (fun i c hi => Cfg.mem_S.2 (h.srcV_in k i c hi).1) _ _
  have s3 : ∀ t n, dot C.S ((C.exchanged.leap g gv w).s t) ((C.leap f fv w).x n) =
      ∑ i, g t i * sample C.rcvP (A n).p i := fun t n =>
    dot_inject_left (fun i c hi => Cfg.mem_S.2 (h.rcvP_in i c hi)) _ _
  have s4 : ∀ t n k, dot C.S ((C.exchanged.leap g gv w).f t k) ((C.leap f fv w).y n k) =
      ∑ i, gv k t i * sample (C.rcvV k) ((A n).v k) i := fun t n k =>
    dot_inject_left (fun i c hi => Cfg.mem_S.2 (h.rcvV_in k i c hi).1) _ _
  simp only [s1, s2, s3, s4] at main
  exact main

end Dw.Acoustic
