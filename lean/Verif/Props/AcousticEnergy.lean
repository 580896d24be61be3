import Verif.Acoustic.Energy
import Verif.Props.Acoustic
import Verif.Props.Cfl

/-!
# Stability of the acoustic propagator without PML
-/

namespace Dw.Acoustic

open Dw.Scalar (inject sample exN)

variable {d np mp : ℕ} {nv mv : Fin d → ℕ} {C : Cfg d np mp nv mv ℝ}

/-- Shape of the wavefields which the user receives. -/
def Cfg.shape (C : Cfg d np mp nv mv ℝ) : Fin d → ℤ := fun k => C.n k - 2 * (C.acc.order / 2 : ℕ) + 1

/-- The points at which velocity `k` is defined: one fewer along dimension `k`. -/
def Cfg.shapeV (C : Cfg d np mp nv mv ℝ) (k : Fin d) : Fin d → ℤ :=
  fun j => if j = k then C.shape j - 1 else C.shape j

/-- A pressure of the user's shape, extended by zero. -/
noncomputable def zeroExt (shape : Fin d → ℤ) (u : Fld d ℝ) : Fld d ℝ := by
  classical exact fun c => if ∀ k, 0 ≤ c k ∧ c k < shape k then u c else 0

/-- Index in the padded models of a cell of the user's shape. -/
def Cfg.at (C : Cfg d np mp nv mv ℝ) (c : Cell d) : Cell d := fun k => c k + (C.acc.order / 2 : ℕ)

/-- Twice the sum of potential and kinetic energy of wavefields of the user's shape, per volume of a
cell. -/
noncomputable def Cfg.userNorm (C : Cfg d np mp nv mv ℝ) (p : Fld d ℝ) (v : Fin d → Fld d ℝ) : ℝ :=
  ∑ c ∈ box (fun _ => 0) C.shape, p c ^ 2 / C.K (C.at c) +
    ∑ k, ∑ c ∈ box (fun _ => 0) (C.shapeV k), v k c ^ 2 / C.B k (C.at c)

/-- The same with the kinetic energy taken between two time levels. -/
noncomputable def Cfg.userEnergy (C : Cfg d np mp nv mv ℝ) (p : Fld d ℝ) (v : Fin d → Fld d ℝ) : ℝ :=
  C.userNorm p v - C.dt * ∑ k, ∑ c ∈ box (fun _ => 0) (C.shapeV k),
    v k c * DSH C.acc (1 / C.dx k) k (zeroExt C.shape p) c

theorem Cfg.at_inner {c : Cell d} : C.Inner (C.at c) ↔ ∀ k, 0 ≤ c k ∧ c k < C.shape k := by
  constructor
  · intro h k
    have := h k
    simp only [Cfg.at, Acc.order_div_two] at this
    simp only [Cfg.shape, Acc.order_div_two]
    constructor <;> omega
  · intro h k
    have := h k
    simp only [Cfg.shape, Acc.order_div_two] at this
    simp only [Cfg.at, Acc.order_div_two]
    constructor <;> omega

theorem Cfg.sum_S (F : Fld d ℝ) : ∑ c ∈ C.S, F c = ∑ c ∈ box (fun _ => 0) C.shape, F (C.at c) := by
  symm
  refine Finset.sum_bij (fun c _ => C.at c) ?_ ?_ ?_ ?_
  · intro c hc
    exact Cfg.mem_S.2 (Cfg.at_inner.2 (mem_box.1 hc))
  · intro c _ c' _ h
    funext k
    have := congrFun h k
    simpa [Cfg.at] using this
  · intro c hc
    have e : C.at (fun k => c k - (C.acc.order / 2 : ℕ)) = c := by
      funext k
      simp [Cfg.at]
    refine ⟨fun k => c k - (C.acc.order / 2 : ℕ), mem_box.2 (Cfg.at_inner.1 ?_), e⟩
    rw [e]
    exact Cfg.mem_S.1 hc
  · intro c _; rfl

theorem Cfg.pad_at (u : Option (Fld d ℝ)) (c : Cell d) :
    C.createOrPad u (C.at c) = zeroExt C.shape (u.getD fun _ => 0) c := by
  have hs : (fun k => C.at c k - (C.acc.pad : ℤ)) = c := by
    funext k; simp [Cfg.at, Acc.order_div_two]
  cases u with
  | none => simp [Cfg.createOrPad, zeroExt]
  | some u =>
      simp only [Cfg.createOrPad, zeroExt, Option.getD_some, hs]
      by_cases hc : C.Inner (C.at c)
      · rw [if_pos hc, if_pos (Cfg.at_inner.1 hc)]
      · rw [if_neg hc, if_neg fun h => hc (Cfg.at_inner.2 h)]

/-- Sums over a velocity array with cleared trailing edge. -/
theorem Cfg.sum_V (k : Fin d) (u : Option (Fld d ℝ)) (F : ℝ → Cell d → ℝ) (hF : ∀ c, F 0 c = 0) :
    ∑ c ∈ C.S, F (C.zeroEdge k (C.createOrPad u) c) c =
      ∑ c ∈ box (fun _ => 0) (C.shapeV k), F (u.getD (fun _ => 0) c) (C.at c) := by
  rw [Cfg.sum_S]
  symm
  have sub : box (fun _ => 0) (C.shapeV k) ⊆ box (fun _ => 0) C.shape := by
    intro c hc
    rw [mem_box] at hc ⊢
    intro j
    have := hc j
    simp only [Cfg.shapeV] at this
    split_ifs at this <;> omega
  rw [← Finset.sum_subset sub]
  · refine Finset.sum_congr rfl fun c hc => ?_
    have h1 := mem_box.1 hc
    have h2 := mem_box.1 (sub hc)
    have hk := h1 k
    simp only [Cfg.shapeV, if_true, Cfg.shape, Acc.order_div_two] at hk
    have e : ¬C.at c k = C.n k - C.acc.pad := by
      simp only [Cfg.at, Acc.order_div_two]; omega
    simp only [Cfg.zeroEdge, if_neg e, Cfg.pad_at, zeroExt]
    rw [if_pos h2]
  · intro c hc hn
    have e : C.at c k = C.n k - C.acc.pad := by
      have h2 := mem_box.1 hc
      have hk := h2 k
      by_contra hne
      refine hn (mem_box.2 fun j => ?_)
      have hj := h2 j
      simp only [Cfg.shapeV]
      split_ifs with hjk
      · subst hjk
        simp only [Cfg.at, Cfg.shape, Acc.order_div_two] at hne hj ⊢
        omega
      · exact hj
    simp only [Cfg.zeroEdge, if_pos e, hF]

theorem Cfg.norm_prepare (w : Init d ℝ) : C.norm2 (C.prepare w) =
    C.userNorm (w.p.getD fun _ => 0) fun k => (w.v k).getD fun _ => 0 := by
  unfold Cfg.norm2 Cfg.userNorm
  congr 1
  · rw [Cfg.sum_S]
    refine Finset.sum_congr rfl fun c hc => ?_
    simp only [Cfg.prepare, Cfg.pad_at, zeroExt]
    rw [if_pos (mem_box.1 hc)]
  · refine Finset.sum_congr rfl fun k _ => ?_
    exact Cfg.sum_V k (w.v k) (fun x c => x ^ 2 / C.B k c) fun c => by simp

theorem Cfg.energy_prepare (w : Init d ℝ) : C.energy (C.prepare w) =
    C.userEnergy (w.p.getD fun _ => 0) fun k => (w.v k).getD fun _ => 0 := by
  have e1 : C.energy (C.prepare w) = C.norm2 (C.prepare w) - C.dt * ∑ k, ∑ c ∈ C.S,
      (C.prepare w).v k c * C.DH k (C.prepare w).p c := by
    simp only [Cfg.energy, Cfg.norm2, Finset.sum_sub_distrib, Finset.mul_sum]
    ring
  rw [e1, Cfg.norm_prepare, Cfg.userEnergy]
  congr 2
  refine Finset.sum_congr rfl fun k _ => ?_
  refine (Cfg.sum_V k (w.v k) (fun x c => x * C.DH k (C.prepare w).p c) fun c => by simp).trans ?_
  refine Finset.sum_congr rfl fun c _ => ?_
  congr 1
  simp only [Cfg.DH, DSH]
  congr 1
  funext j
  simp only [Cfg.prepare]
  rw [← Cfg.pad_at]
  congr 1
  funext i
  simp only [Cfg.at, Cell.shift, Pi.add_apply]
  ring

theorem Cfg.norm_out {s : Wavefields d ℝ} (hs : C.Good s) :
    C.userNorm (C.unpadAll s).p (C.unpadAll s).v = C.norm2 s := by
  conv_rhs => rw [← prepare_unpadAll hs]
  rw [Cfg.norm_prepare]
  rfl

theorem Cfg.energy_out {s : Wavefields d ℝ} (hs : C.Good s) :
    C.userEnergy (C.unpadAll s).p (C.unpadAll s).v = C.energy s := by
  conv_rhs => rw [← prepare_unpadAll hs]
  rw [Cfg.energy_prepare]
  rfl

/-- **C68** Without PML and sources, the energy of the wavefields returned by `acoustic` is the energy
of the wavefields given, however many steps are made, whatever the models and the callback
frequency. -/
theorem C68_energy_conserved (h : C.WF) (hn : C.NoPml) (hK : ∀ c, C.Inner c → C.K c ≠ 0)
    (hB : ∀ k c, C.InnerH k c → C.B k c ≠ 0) (hr : 0 < C.ratio) (gk gb : Bool) (cb : Option ℕ) (nt : ℕ)
    (hcf : 0 < nt → 0 < cb.getD (nt / C.ratio)) (w : Init d ℝ) :
    ∃ r, C.forward gk gb cb nt (fun _ _ => 0) (fun _ _ _ => 0) w = .ok r ∧
      C.userEnergy r.out.p r.out.v =
        C.userEnergy (w.p.getD fun _ => 0) fun k => (w.v k).getD fun _ => 0 := by
  refine ⟨_, forward_eq h gk gb cb nt _ _ w hr hcf, ?_⟩
  simp only
  rw [Cfg.energy_out (run_good h _ _ (prepare_good w) _),
    energy_run h hn hK hB (prepare_good w) _ _ (fun _ _ => rfl) (fun _ _ _ => rfl), Cfg.energy_prepare]

/-! ### Models of the user -/

/-- The configuration is that of velocity `v` and density `rho` (padded), which are positive. -/
structure Cfg.FromModels (C : Cfg d np mp nv mv ℝ) (rfmax : ℝ) (v rho : Fld d ℝ) : Prop where
  K : C.K = prepareK v rho
  B : C.B = prepareB C.n rfmax rho
  rfmax_pos : 0 < rfmax
  v_ne : ∀ c, (∀ k, 0 ≤ c k ∧ c k < C.n k) → v c ≠ 0
  rho_big : ∀ c, (∀ k, 0 ≤ c k ∧ c k < C.n k) → rfmax < rho c

theorem hwt_range {acc : Acc} {j : ℤ} (hj : hwt acc j ≠ 0) :
    1 - (acc.pad : ℤ) ≤ j ∧ j ≤ acc.pad := by
  cases acc <;> simp only [hwt, Acc.pad] at hj ⊢ <;> split_ifs at hj <;>
    first
    | exact absurd rfl hj
    | (subst_vars; norm_num)

theorem inner_array {c : Cell d} (hc : C.Inner c) (k : Fin d) : 0 ≤ c k ∧ c k < C.n k := by
  have := hc k
  have := C.acc.pad_pos
  constructor <;> omega

theorem shift_array {k : Fin d} {c : Cell d} (hc : C.InnerH k c) {j : ℤ} (h1 : 1 - (C.acc.pad : ℤ) ≤ j)
    (h2 : j ≤ C.acc.pad) (i : Fin d) : 0 ≤ c.shift k j i ∧ c.shift k j i < C.n i := by
  have h3 := hc.1 i
  have h4 := hc.2
  have := C.acc.pad_pos
  by_cases hik : i = k
  · subst hik
    rw [Cell.shift_same]
    constructor <;> omega
  · simp only [Cell.shift, Pi.add_apply, Pi.single_eq_of_ne hik]
    constructor <;> omega

theorem FromModels.facts {rfmax : ℝ} {v rho : Fld d ℝ} (hm : C.FromModels rfmax v rho) :
    (∀ c, C.Inner c → 0 < C.K c) ∧ (∀ k c, C.InnerH k c → 0 < C.B k c ∧
      C.B k c = 1 / ((rho c + rho (c.shift k 1)) / 2)) := by
  have hpos : ∀ c, (∀ k, 0 ≤ c k ∧ c k < C.n k) → 0 < rho c :=
    fun c hc => hm.rfmax_pos.trans (hm.rho_big c hc)
  refine ⟨fun c hc => ?_, fun k c hc => ?_⟩
  · rw [hm.K]
    have h1 := hpos c (inner_array hc)
    have h2 := hm.v_ne c (inner_array hc)
    simp only [prepareK]
    positivity
  · have h0 := hm.rho_big c (inner_array hc.1)
    have hp : (1 : ℤ) ≤ C.acc.pad := by exact_mod_cast C.acc.pad_pos
    have h1 := hm.rho_big _ (shift_array hc (j := 1) (by omega) hp)
    have hm1 : meanRho C.n rho k c = (rho c + rho (c.shift k 1)) / 2 :=
      if_pos (by have := hc.2; omega)
    have hrf := hm.rfmax_pos
    have hlt : rfmax < (rho c + rho (c.shift k 1)) / 2 := by linarith
    have e : C.B k c = 1 / ((rho c + rho (c.shift k 1)) / 2) := by
      rw [hm.B]
      simp only [prepareB, hm1]
      exact if_pos (by rw [abs_of_pos (by linarith)]; exact hlt)
    refine ⟨?_, e⟩
    rw [e]
    have : 0 < (rho c + rho (c.shift k 1)) / 2 := by linarith
    positivity

open Setup in
theorem cfl_sq {dx : Fin d → ℝ} {dt userDt vmax : ℝ} {m : ℤ}
    (hcfl : cflConditionN (List.ofFn dx) userDt vmax = .ok (dt, m)) :
    vmax ^ 2 * dt ^ 2 * ∑ k, (1 / dx k) ^ 2 ≤ (6 / 10) ^ 2 ∧ 0 < vmax := by
  have hok : ¬∃ e, cflConditionN (List.ofFn dx) userDt vmax = .error e := by
    rintro ⟨e, he⟩
    rw [he] at hcfl
    cases hcfl
  have hrej : ¬(List.ofFn dx = [] ∨ (∃ g ∈ List.ofFn dx, g ≤ 0) ∨ vmax ≤ 0 ∨ userDt = 0) :=
    fun hh => hok (C13_rejects _ _ _ hh)
  push Not at hrej
  obtain ⟨h1, h2, h3, h4⟩ := hrej
  obtain ⟨x, r, e, hr, hx, hsgn, hcour, -⟩ := C13_internal_time_step _ h1 h2 vmax h3 userDt h4
  rw [e] at hcfl
  obtain ⟨rfl, rfl⟩ : x = dt ∧ r = m := by simpa using hcfl
  refine ⟨?_, h3⟩
  have hs : ((List.ofFn dx).map fun g => 1 / g ^ 2).sum = ∑ k, (1 / dx k) ^ 2 := by
    rw [List.map_ofFn, List.sum_ofFn]
    exact Finset.sum_congr rfl fun k _ => by simp
  have hnn : 0 ≤ ∑ k, (1 / dx k) ^ 2 := Finset.sum_nonneg fun _ _ => by positivity
  unfold courant at hcour
  rw [hs] at hcour
  have hnn2 : 0 ≤ vmax * |x| * Real.sqrt (∑ k, (1 / dx k) ^ 2) := by positivity
  have e2 : vmax ^ 2 * x ^ 2 * ∑ k, (1 / dx k) ^ 2 =
      (vmax * |x| * Real.sqrt (∑ k, (1 / dx k) ^ 2)) ^ 2 := by
    rw [mul_pow, mul_pow, sq_abs, Real.sq_sqrt hnn]
  rw [e2]
  exact pow_le_pow_left₀ hnn2 (hcour.trans (by norm_num)) 2

/-- The gradient of the pressure is bounded by the norm. -/
theorem grad_bound {rfmax : ℝ} {v rho : Fld d ℝ} (hm : C.FromModels rfmax v rho)
    (hc : C.ModestContrast rho) {userDt vmax : ℝ} {m : ℤ}
    (hcfl : Setup.cflConditionN (List.ofFn C.dx) userDt vmax = .ok (C.dt, m))
    (hvmax : ∀ c, C.Inner c → |v c| ≤ vmax) {s : Wavefields d ℝ} (hs : C.Good s) :
    C.dt ^ 2 * ∑ k, ∑ c ∈ C.S with C.InnerH k c, C.B k c * C.DH k s.p c ^ 2 ≤
      (6 / 10) ^ 2 * (gmax C.acc * hsum C.acc) * ∑ c ∈ C.S, s.p c ^ 2 / C.K c := by
  obtain ⟨hcf, hv0⟩ := cfl_sq hcfl
  have hpos : ∀ c, (∀ k, 0 ≤ c k ∧ c k < C.n k) → 0 < rho c :=
    fun c hc => hm.rfmax_pos.trans (hm.rho_big c hc)
  have hg0 : 0 ≤ gmax C.acc := by cases C.acc <;> simp [gmax] <;> norm_num
  have hh0 : 0 ≤ hsum C.acc := Finset.sum_nonneg fun _ _ => abs_nonneg _
  have h1 : ∀ k, ∑ c ∈ C.S with C.InnerH k c, C.B k c * C.DH k s.p c ^ 2 ≤
      (1 / C.dx k) ^ 2 * (gmax C.acc * hsum C.acc) * ∑ c ∈ C.S, s.p c ^ 2 / rho c := by
    intro k
    refine dsh_bound (supp_of hs.p) C.acc (1 / C.dx k) k rho (C.B k) (gmax C.acc) ?_ ?_ ?_ hg0 ?_
    · intro c hcT j _ hj
      rw [Finset.mem_filter] at hcT
      obtain ⟨ha, hb⟩ := hwt_range hj
      exact hpos _ (shift_array hcT.2 ha hb)
    · intro c hcS
      exact hpos _ (inner_array (Cfg.mem_S.1 hcS))
    · intro c hcT
      rw [Finset.mem_filter] at hcT
      exact ((FromModels.facts hm).2 k c hcT.2).1.le
    · intro c hcT
      rw [Finset.mem_filter] at hcT
      rw [((FromModels.facts hm).2 k c hcT.2).2]
      have hp : (1 : ℤ) ≤ C.acc.pad := by exact_mod_cast C.acc.pad_pos
      have := weighted_le C.acc (fun j => rho (c.shift k j))
        ⟨hpos _ (shift_array hcT.2 (by omega) (by omega)),
          hpos _ (shift_array hcT.2 (by omega) (by omega))⟩ ?_
      · simpa only [Cell.shift_zero] using this
      · intro j h1 h2
        simpa only [Cell.shift_zero] using hc k c hcT.2 j h1 h2
  have h2 : ∑ c ∈ C.S, s.p c ^ 2 / rho c ≤ vmax ^ 2 * ∑ c ∈ C.S, s.p c ^ 2 / C.K c := by
    rw [Finset.mul_sum]
    refine Finset.sum_le_sum fun c hcS => ?_
    have hi := Cfg.mem_S.1 hcS
    have hr := hpos _ (inner_array hi)
    have hv := hm.v_ne _ (inner_array hi)
    have hle : v c ^ 2 ≤ vmax ^ 2 := sq_le_sq' (abs_le.1 (hvmax c hi)).1 (abs_le.1 (hvmax c hi)).2
    rw [hm.K]
    simp only [prepareK]
    have hv2 : 0 < v c ^ 2 := by positivity
    have e : s.p c ^ 2 / rho c = v c ^ 2 * (s.p c ^ 2 / (rho c * v c ^ 2)) := by
      field_simp
    rw [e]
    exact mul_le_mul_of_nonneg_right hle (by positivity)
  have hP : 0 ≤ ∑ c ∈ C.S, s.p c ^ 2 / C.K c := Finset.sum_nonneg fun c hcS =>
    div_nonneg (sq_nonneg _) ((FromModels.facts hm).1 c (Cfg.mem_S.1 hcS)).le
  have hX : 0 ≤ ∑ k, (1 / C.dx k) ^ 2 := Finset.sum_nonneg fun _ _ => by positivity
  calc C.dt ^ 2 * ∑ k, ∑ c ∈ C.S with C.InnerH k c, C.B k c * C.DH k s.p c ^ 2
      ≤ C.dt ^ 2 * ∑ k, (1 / C.dx k) ^ 2 * (gmax C.acc * hsum C.acc) * ∑ c ∈ C.S, s.p c ^ 2 / rho c :=
        mul_le_mul_of_nonneg_left (Finset.sum_le_sum fun k _ => h1 k) (sq_nonneg _)
    _ = C.dt ^ 2 * (∑ k, (1 / C.dx k) ^ 2) * (gmax C.acc * hsum C.acc) *
          ∑ c ∈ C.S, s.p c ^ 2 / rho c := by
        rw [← Finset.sum_mul, ← Finset.sum_mul]; ring
    _ ≤ C.dt ^ 2 * (∑ k, (1 / C.dx k) ^ 2) * (gmax C.acc * hsum C.acc) *
          (vmax ^ 2 * ∑ c ∈ C.S, s.p c ^ 2 / C.K c) :=
        mul_le_mul_of_nonneg_left h2 (by positivity)
    _ = (vmax ^ 2 * C.dt ^ 2 * ∑ k, (1 / C.dx k) ^ 2) * (gmax C.acc * hsum C.acc) *
          ∑ c ∈ C.S, s.p c ^ 2 / C.K c := by ring
    _ ≤ _ := mul_le_mul_of_nonneg_right (mul_le_mul_of_nonneg_right hcf (by positivity)) hP

/-- Bound for the reference recursion. -/
theorem norm_run (h : C.WF) (hn : C.NoPml) {rfmax : ℝ} {v rho : Fld d ℝ}
    (hm : C.FromModels rfmax v rho) (hc : C.ModestContrast rho) {userDt vmax : ℝ} {m : ℤ}
    (hcfl : Setup.cflConditionN (List.ofFn C.dx) userDt vmax = .ok (C.dt, m))
    (hvmax : ∀ c, C.Inner c → |v c| ≤ vmax) {s : Wavefields d ℝ} (hs : C.Good s) {θ : ℝ} (hθ : 0 < θ)
    (hθ1 : θ < 1) (hθ2 : (6 / 10 : ℝ) ^ 2 * (gmax C.acc * hsum C.acc) ≤ 4 * θ ^ 2)
    (fp : ℕ → Fin np → ℝ) (fv : (k : Fin d) → ℕ → Fin (nv k) → ℝ) (hfp : ∀ t i, fp t i = 0)
    (hfv : ∀ k t i, fv k t i = 0) (n : ℕ) :
    C.norm2 (C.run fp fv s n) ≤ (1 + θ) / (1 - θ) * C.norm2 s := by
  have hf := FromModels.facts hm
  have hP : ∀ s : Wavefields d ℝ, 0 ≤ ∑ c ∈ C.S, s.p c ^ 2 / C.K c := fun s =>
    Finset.sum_nonneg fun c hcS => div_nonneg (sq_nonneg _) (hf.1 c (Cfg.mem_S.1 hcS)).le
  have hb : ∀ {s : Wavefields d ℝ}, C.Good s →
      (1 - θ) * C.norm2 s ≤ C.energy s ∧ C.energy s ≤ (1 + θ) * C.norm2 s := fun {s} hs =>
    energy_bounds (fun k c hc => (hf.2 k c hc).1) hs hθ ((grad_bound hm hc hcfl hvmax hs).trans
      (mul_le_mul_of_nonneg_right hθ2 (hP s)))
  have e := energy_run h hn (fun c hc => (hf.1 c hc).ne') (fun k c hc => (hf.2 k c hc).1.ne') hs
    fp fv hfp hfv n
  have h1 := (hb (run_good h fp fv hs n)).1
  have h2 := (hb hs).2
  rw [div_mul_eq_mul_div, le_div_iff₀ (by linarith)]
  linarith

/-- **C68** Without PML and sources, with positive density, nonzero velocity, and the internal time step
chosen by `cfl_condition_n` for a velocity `vmax` that is not exceeded, the energy norm after any number
of steps is at most 199 times the initial one, if the density at the points of a stencil is at
most ten times the mean density at its centre. -/
theorem C68_stable (h : C.WF) (hn : C.NoPml) (rfmax : ℝ) (v rho : Fld d ℝ)
    (hm : C.FromModels rfmax v rho) (hc : C.ModestContrast rho) (userDt vmax : ℝ) (m : ℤ)
    (hcfl : Setup.cflConditionN (List.ofFn C.dx) userDt vmax = .ok (C.dt, m))
    (hvmax : ∀ c, C.Inner c → |v c| ≤ vmax) (hr : 0 < C.ratio) (gk gb : Bool) (cb : Option ℕ)
    (nt : ℕ) (hcf : 0 < nt → 0 < cb.getD (nt / C.ratio)) (w : Init d ℝ) :
    ∃ r, C.forward gk gb cb nt (fun _ _ => 0) (fun _ _ _ => 0) w = .ok r ∧
      C.userNorm r.out.p r.out.v ≤
        199 * C.userNorm (w.p.getD fun _ => 0) fun k => (w.v k).getD fun _ => 0 := by
  refine ⟨_, forward_eq h gk gb cb nt _ _ w hr hcf, ?_⟩
  simp only
  rw [Cfg.norm_out (run_good h _ _ (prepare_good w) _), ← Cfg.norm_prepare]
  have := norm_run h hn hm hc hcfl hvmax (prepare_good w) (θ := 99 / 100) (by norm_num) (by norm_num)
    (gmax_hsum C.acc) (fun _ _ => 0) (fun _ _ _ => 0) (fun _ _ => rfl) (fun _ _ _ => rfl)
    (nt / C.ratio * C.ratio)
  norm_num at this
  exact this

/-- **C68** With accuracy 2 the factor is 4, whatever the density. -/
theorem C68_stable_accuracy_two (h : C.WF) (hn : C.NoPml) (hacc : C.acc.order = 2) (rfmax : ℝ)
    (v rho : Fld d ℝ) (hm : C.FromModels rfmax v rho) (userDt vmax : ℝ) (m : ℤ)
    (hcfl : Setup.cflConditionN (List.ofFn C.dx) userDt vmax = .ok (C.dt, m))
    (hvmax : ∀ c, C.Inner c → |v c| ≤ vmax) (hr : 0 < C.ratio) (gk gb : Bool) (cb : Option ℕ)
    (nt : ℕ) (hcf : 0 < nt → 0 < cb.getD (nt / C.ratio)) (w : Init d ℝ) :
    ∃ r, C.forward gk gb cb nt (fun _ _ => 0) (fun _ _ _ => 0) w = .ok r ∧
      C.userNorm r.out.p r.out.v ≤
        4 * C.userNorm (w.p.getD fun _ => 0) fun k => (w.v k).getD fun _ => 0 := by
  have hacc2 : C.acc = .a2 := by
    cases e : C.acc <;> simp [e, Acc.order] at hacc ⊢
  refine ⟨_, forward_eq h gk gb cb nt _ _ w hr hcf, ?_⟩
  simp only
  rw [Cfg.norm_out (run_good h _ _ (prepare_good w) _), ← Cfg.norm_prepare]
  have hc : C.ModestContrast rho := by
    intro k c hc j h1 h2
    rw [Acc.order_div_two] at h1 h2
    have h3 := hm.rho_big _ (shift_array hc h1 h2)
    have hp : (1 : ℤ) ≤ C.acc.pad := by exact_mod_cast C.acc.pad_pos
    have h4 := hm.rho_big _ (shift_array hc (j := 0) (by omega) (by omega))
    have h5 := hm.rho_big _ (shift_array hc (j := 1) (by omega) (by omega))
    rw [Cell.shift_zero] at h4
    have h0 := hm.rfmax_pos
    have hj : j = 0 ∨ j = 1 := by
      rw [hacc2] at h1 h2
      simp only [Acc.pad] at h1 h2
      omega
    rcases hj with rfl | rfl
    · rw [Cell.shift_zero]; linarith
    · linarith
  have := norm_run h hn hm hc hcfl hvmax (prepare_good w) (θ := 6 / 10) (by norm_num) (by norm_num)
    (by rw [hacc2]; exact gmax_hsum_a2) (fun _ _ => 0) (fun _ _ _ => 0) (fun _ _ => rfl)
    (fun _ _ _ => rfl) (nt / C.ratio * C.ratio)
  norm_num at this
  exact this

/-- With sources of finite duration the states of the reference recursion stay bounded. -/
theorem run_bounded (h : C.WF) (hn : C.NoPml) (rfmax : ℝ) (v rho : Fld d ℝ)
    (hm : C.FromModels rfmax v rho) (hc : C.ModestContrast rho) (userDt vmax : ℝ) (m : ℤ)
    (hcfl : Setup.cflConditionN (List.ofFn C.dx) userDt vmax = .ok (C.dt, m))
    (hvmax : ∀ c, C.Inner c → |v c| ≤ vmax) (fp : ℕ → Fin np → ℝ)
    (fv : (k : Fin d) → ℕ → Fin (nv k) → ℝ) (T : ℕ) (hfp : ∀ t, T ≤ t → ∀ i, fp t i = 0)
    (hfv : ∀ k t, T ≤ t → ∀ i, fv k t i = 0) (w : Init d ℝ) :
    ∃ A P V : ℝ, 0 ≤ A ∧ 0 ≤ P ∧ 0 ≤ V ∧ ∀ n, C.norm2 (C.run fp fv (C.prepare w) n) ≤ A ∧
      (∀ c, |(C.run fp fv (C.prepare w) n).p c| ≤ P) ∧ ∀ k c, |(C.run fp fv (C.prepare w) n).v k c| ≤ V := by
  have hf := FromModels.facts hm
  have hN : ∀ {s : Wavefields d ℝ}, C.Good s → 0 ≤ C.norm2 s := fun {s} hs => add_nonneg
    (Finset.sum_nonneg fun c hcS => div_nonneg (sq_nonneg _) (hf.1 c (Cfg.mem_S.1 hcS)).le)
    (Finset.sum_nonneg fun k _ => Finset.sum_nonneg fun c _ => by
      by_cases hi : C.InnerH k c
      · exact div_nonneg (sq_nonneg _) (hf.2 k c hi).1.le
      · rw [hs.v k c hi]; simp)
  have hg : ∀ n, C.Good (C.run fp fv (C.prepare w) n) := run_good h fp fv (prepare_good w)
  obtain ⟨A, hA0, hA⟩ : ∃ A : ℝ, 0 ≤ A ∧ ∀ n, C.norm2 (C.run fp fv (C.prepare w) n) ≤ A := by
    have hT := hN (hg T)
    have hsum := Finset.sum_nonneg fun n (_ : n ∈ Finset.range T) => hN (hg n)
    refine ⟨∑ n ∈ Finset.range T, C.norm2 (C.run fp fv (C.prepare w) n) +
      199 * C.norm2 (C.run fp fv (C.prepare w) T), by linarith, fun n => ?_⟩
    by_cases hnT : n < T
    · have := Finset.single_le_sum (f := fun n => C.norm2 (C.run fp fv (C.prepare w) n))
        (fun n _ => hN (hg n)) (Finset.mem_range.2 hnT)
      linarith
    · have e : n = T + (n - T) := by omega
      rw [e, run_add]
      have := norm_run h hn hm hc hcfl hvmax (hg T) (θ := 99 / 100) (by norm_num) (by norm_num)
        (gmax_hsum C.acc) (fun t => fp (T + t)) (fun k t => fv k (T + t))
        (fun t i => hfp _ (by omega) i) (fun k t i => hfv k _ (by omega) i) (n - T)
      norm_num at this
      linarith
  have hMK : 0 ≤ ∑ c ∈ C.S, C.K c := Finset.sum_nonneg fun c hcS => (hf.1 c (Cfg.mem_S.1 hcS)).le
  have hMB : ∀ k, 0 ≤ ∑ c ∈ C.S with C.InnerH k c, C.B k c := fun k => Finset.sum_nonneg fun c hcS =>
    (hf.2 k c (Finset.mem_filter.1 hcS).2).1.le
  have hp : ∀ n c, |(C.run fp fv (C.prepare w) n).p c| ≤ Real.sqrt ((∑ c ∈ C.S, C.K c) * A) := by
    intro n c
    by_cases hcS : C.Inner c
    · refine Real.abs_le_sqrt ?_
      have hk := hf.1 c hcS
      have h1 : (C.run fp fv (C.prepare w) n).p c ^ 2 / C.K c ≤ A := by
        refine le_trans ?_ (hA n)
        have h2 := Finset.single_le_sum (f := fun c => (C.run fp fv (C.prepare w) n).p c ^ 2 / C.K c)
          (fun c hcS => div_nonneg (sq_nonneg _) (hf.1 c (Cfg.mem_S.1 hcS)).le) (Cfg.mem_S.2 hcS)
        have h3 : 0 ≤ ∑ k, ∑ c ∈ C.S, (C.run fp fv (C.prepare w) n).v k c ^ 2 / C.B k c :=
          Finset.sum_nonneg fun k _ => Finset.sum_nonneg fun c _ => by
            by_cases hi : C.InnerH k c
            · exact div_nonneg (sq_nonneg _) (hf.2 k c hi).1.le
            · rw [(hg n).v k c hi]; simp
        unfold Cfg.norm2
        linarith
      rw [div_le_iff₀ hk] at h1
      refine h1.trans ?_
      rw [mul_comm]
      exact mul_le_mul_of_nonneg_right (Finset.single_le_sum (f := fun c => C.K c)
        (fun c hcS => (hf.1 c (Cfg.mem_S.1 hcS)).le) (Cfg.mem_S.2 hcS)) hA0
    · rw [(hg n).p c hcS, abs_zero]
      exact Real.sqrt_nonneg _
  have hv : ∀ n k c, |(C.run fp fv (C.prepare w) n).v k c| ≤
      Real.sqrt ((∑ c ∈ C.S with C.InnerH k c, C.B k c) * A) := by
    intro n k c
    by_cases hi : C.InnerH k c
    · refine Real.abs_le_sqrt ?_
      have hk := (hf.2 k c hi).1
      have h1 : (C.run fp fv (C.prepare w) n).v k c ^ 2 / C.B k c ≤ A := by
        refine le_trans ?_ (hA n)
        have h0 : ∀ k c, 0 ≤ (C.run fp fv (C.prepare w) n).v k c ^ 2 / C.B k c := by
          intro k c
          by_cases hi : C.InnerH k c
          · exact div_nonneg (sq_nonneg _) (hf.2 k c hi).1.le
          · rw [(hg n).v k c hi]; simp
        have h2 := Finset.single_le_sum (f := fun c => (C.run fp fv (C.prepare w) n).v k c ^ 2 / C.B k c)
          (fun c _ => h0 k c) (Cfg.mem_S.2 hi.1)
        have h3 := Finset.single_le_sum
          (f := fun k => ∑ c ∈ C.S, (C.run fp fv (C.prepare w) n).v k c ^ 2 / C.B k c)
          (fun k _ => Finset.sum_nonneg fun c _ => h0 k c) (Finset.mem_univ k)
        have h4 : 0 ≤ ∑ c ∈ C.S, (C.run fp fv (C.prepare w) n).p c ^ 2 / C.K c :=
          Finset.sum_nonneg fun c hcS => div_nonneg (sq_nonneg _) (hf.1 c (Cfg.mem_S.1 hcS)).le
        unfold Cfg.norm2
        linarith
      rw [div_le_iff₀ hk] at h1
      refine h1.trans ?_
      rw [mul_comm]
      exact mul_le_mul_of_nonneg_right (Finset.single_le_sum (f := fun c => C.B k c)
        (fun c hcS => (hf.2 k c (Finset.mem_filter.1 hcS).2).1.le)
        (Finset.mem_filter.2 ⟨Cfg.mem_S.2 hi.1, hi⟩)) hA0
    · rw [(hg n).v k c hi, abs_zero]
      exact Real.sqrt_nonneg _
  set P := Real.sqrt ((∑ c ∈ C.S, C.K c) * A)
  set V := ∑ k, Real.sqrt ((∑ c ∈ C.S with C.InnerH k c, C.B k c) * A) with hVdef
  have hP0 : 0 ≤ P := Real.sqrt_nonneg _
  have hV0 : 0 ≤ V := Finset.sum_nonneg fun _ _ => Real.sqrt_nonneg _
  have hVk : ∀ k, Real.sqrt ((∑ c ∈ C.S with C.InnerH k c, C.B k c) * A) ≤ V := fun k =>
    Finset.single_le_sum (f := fun k => Real.sqrt ((∑ c ∈ C.S with C.InnerH k c, C.B k c) * A))
      (fun _ _ => Real.sqrt_nonneg _) (Finset.mem_univ k)
  exact ⟨A, P, V, hA0, hP0, hV0, fun n => ⟨hA n, hp n, fun k c => (hv n k c).trans (hVk k)⟩⟩

/-- **C68** With sources of finite duration, energy norm and receiver data stay bounded for ever: one
bound holds for all numbers of steps. -/
theorem C68_never_blows_up (h : C.WF) (hn : C.NoPml) (rfmax : ℝ) (v rho : Fld d ℝ)
    (hm : C.FromModels rfmax v rho) (hc : C.ModestContrast rho) (userDt vmax : ℝ) (m : ℤ)
    (hcfl : Setup.cflConditionN (List.ofFn C.dx) userDt vmax = .ok (C.dt, m))
    (hvmax : ∀ c, C.Inner c → |v c| ≤ vmax) (hr : 0 < C.ratio) (fp : ℕ → Fin np → ℝ)
    (fv : (k : Fin d) → ℕ → Fin (nv k) → ℝ) (T : ℕ) (hfp : ∀ t, T ≤ t → ∀ i, fp t i = 0)
    (hfv : ∀ k t, T ≤ t → ∀ i, fv k t i = 0) (w : Init d ℝ) :
    ∃ B : ℝ, ∀ (gk gb : Bool) (cb : Option ℕ) (nt : ℕ), (0 < nt → 0 < cb.getD (nt / C.ratio)) →
      ∃ r, C.forward gk gb cb nt fp fv w = .ok r ∧ C.userNorm r.out.p r.out.v ≤ B ∧
        (∀ t i, |r.rcdP t i| ≤ B) ∧ ∀ k t i, |r.rcdV k t i| ≤ B := by
  have hg : ∀ n, C.Good (C.run fp fv (C.prepare w) n) := run_good h fp fv (prepare_good w)
  obtain ⟨A, P, V, hA0, hP0, hV0, hall⟩ := run_bounded h hn rfmax v rho hm hc userDt vmax m hcfl hvmax fp fv T hfp hfv w
  have hA := fun n => (hall n).1
  have hp := fun n => (hall n).2.1
  have hv := fun n => (hall n).2.2
  refine ⟨A + P + V, fun gk gb cb nt hcf => ⟨_, forward_eq h gk gb cb nt fp fv w hr hcf, ?_, ?_, ?_⟩⟩
  · simp only
    rw [Cfg.norm_out (hg _)]
    have := hA (nt / C.ratio * C.ratio)
    linarith
  · intro t i
    have hle : P ≤ A + P + V := by linarith
    simp only
    split_ifs
    · cases hi : C.rcvP i with
      | none => simpa [sample, hi] using hP0.trans hle
      | some c => simpa [sample, hi] using (hp t c).trans hle
    · simpa using hP0.trans hle
  · intro k t i
    have hle : V ≤ A + P + V := by linarith
    simp only
    split_ifs
    · cases hi : C.rcvV k i with
      | none => simpa [sample, hi] using hV0.trans hle
      | some c => simpa [sample, hi] using (hv t k c).trans hle
    · simpa using hV0.trans hle

/-! ### A model to which the theorems apply -/

noncomputable def exFv : Fld 2 ℝ := fun c => 3 + (c 0 : ℝ) / 10

noncomputable def exFrho : Fld 2 ℝ := fun c => 1 + (c 1 : ℝ) / 10

/-- The example without PML, with models computed from variable velocity and density. -/
noncomputable def exAFree : Cfg 2 2 1 (fun _ => 1) (fun _ => 1) ℝ :=
  { exA ℝ with
    a := fun _ _ => 0, b := fun _ _ => 0, ah := fun _ _ => 0, bh := fun _ _ => 0
    K := prepareK exFv exFrho, B := prepareB exN (1 / 100) exFrho }

theorem exAFree_wf : exAFree.WF :=
  { exA_wf ℝ with
    a_mid := fun _ _ _ => rfl, b_mid := fun _ _ _ => rfl
    ah_mid := fun _ _ _ => rfl, bh_mid := fun _ _ _ => rfl }

theorem exAFree_nopml : exAFree.NoPml := fun _ _ => ⟨rfl, rfl, rfl, rfl⟩

theorem exAFree_models : exAFree.FromModels (1 / 100) exFv exFrho where
  K := rfl
  B := rfl
  rfmax_pos := by norm_num
  v_ne := fun c hc => by
    have h : (0 : ℝ) ≤ c 0 := by exact_mod_cast (hc 0).1
    unfold exFv
    positivity
  rho_big := fun c hc => by
    have h : (0 : ℝ) ≤ c 1 := by exact_mod_cast (hc 1).1
    unfold exFrho
    linarith

theorem exAFree_contrast : exAFree.ModestContrast exFrho := by
  intro k c hc j h1 h2
  have h1' : (1 : ℤ) - 2 ≤ j := h1
  have h2' : j ≤ 2 := h2
  have hc1 : (2 : ℤ) ≤ c 1 := (hc.1 1).1
  have hcr : (2 : ℝ) ≤ c 1 := by exact_mod_cast hc1
  have hjr : (j : ℝ) ≤ 2 := by exact_mod_cast h2'
  unfold exFrho
  fin_cases k
  · simp [Cell.shift]
    linarith
  · simp [Cell.shift]
    linarith

theorem exAFree_cfl : Setup.cflConditionN (List.ofFn exAFree.dx) (1 / 10) 5 = .ok (exAFree.dt, 1) := by
  have edx : List.ofFn exAFree.dx = [1, 2] := by simp [exAFree, exA, List.ofFn_succ]
  obtain ⟨h, r, h1, h2, h3, -, -, h4⟩ := Setup.C13_internal_time_step [1, 2] (by simp) (by simp) 5
    (by norm_num) (1 / 10) (by norm_num)
  have hr : r = 1 := by
    refine le_antisymm ((h4 1 one_pos).1 ?_) h2
    have hs : Real.sqrt (([1, 2] : List ℝ).map fun g => 1 / g ^ 2).sum ≤ 1.119 := by
      rw [Real.sqrt_le_left (by norm_num)]; norm_num
    simp only [Setup.courant, Nat.cast_one, div_one]
    rw [abs_of_pos (by norm_num : (0 : ℝ) < 1 / 10)]
    have := Real.sqrt_nonneg (([1, 2] : List ℝ).map fun g => 1 / g ^ 2).sum
    nlinarith
  subst hr
  rw [edx, h1]
  have : h = 1 / 10 := by simpa using h3
  rw [this]
  rfl

theorem exAFree_v (c : Cell 2) (hc : exAFree.Inner c) : |exFv c| ≤ 5 := by
  have h1 : (2 : ℤ) ≤ c 0 ∧ c 0 < 12 - 2 + 1 := hc 0
  have h2 : (2 : ℝ) ≤ c 0 := by exact_mod_cast h1.1
  have h3 : (c 0 : ℝ) ≤ 10 := by exact_mod_cast (by omega : c 0 ≤ 10)
  unfold exFv
  rw [abs_le]; constructor <;> linarith

example : ∃ r, exAFree.forward true true none 100 (fun _ _ => 0) (fun _ _ _ => 0) (exWf ℝ).toInit = .ok r ∧
    exAFree.userNorm r.out.p r.out.v ≤ 199 * exAFree.userNorm (exWf ℝ).p (exWf ℝ).v :=
  C68_stable exAFree_wf exAFree_nopml _ _ _ exAFree_models exAFree_contrast _ 5 1 exAFree_cfl
    exAFree_v (by decide) _ _ _ _ (by decide) _

example : ∃ B : ℝ, ∀ (gk gb : Bool) (cb : Option ℕ) (nt : ℕ),
    (0 < nt → 0 < cb.getD (nt / exAFree.ratio)) →
      ∃ r, exAFree.forward gk gb cb nt (fun t i => if t < 3 then (t : ℝ) + (i : ℕ) else 0)
        (fun k t _ => if t < 3 then (t : ℝ) + (k : ℕ) else 0) (exWf ℝ).toInit = .ok r ∧
      exAFree.userNorm r.out.p r.out.v ≤ B ∧ (∀ t i, |r.rcdP t i| ≤ B) ∧ ∀ k t i, |r.rcdV k t i| ≤ B :=
  C68_never_blows_up exAFree_wf exAFree_nopml _ _ _ exAFree_models exAFree_contrast _ 5 1 exAFree_cfl
    exAFree_v (by decide) _ _ 3 (fun t ht i => if_neg (by omega)) (fun k t ht i => if_neg (by omega)) _

example : ∃ r, exAFree.forward true true none 100 (fun _ _ => 0) (fun _ _ _ => 0) (exWf ℝ).toInit = .ok r ∧
    exAFree.userEnergy r.out.p r.out.v = exAFree.userEnergy (exWf ℝ).p (exWf ℝ).v :=
  C68_energy_conserved exAFree_wf exAFree_nopml
    (fun c hc => ((FromModels.facts exAFree_models).1 c hc).ne')
    (fun k c hc => ((FromModels.facts exAFree_models).2 k c hc).1.ne') (by decide) _ _ _ _ (by decide) _

/-- A density with a contrast of a million, for accuracy 2. -/
noncomputable def exTwoRho : Fld 2 ℝ := fun c => if c 0 = 5 then 1000000 else 1

noncomputable def exTwo : Cfg 2 2 1 (fun _ => 1) (fun _ => 1) ℝ :=
  { exAFree with acc := .a2, K := prepareK exFv exTwoRho, B := prepareB exN (1 / 100) exTwoRho }

theorem exTwo_wf : exTwo.WF := by
  have inn : ∀ x y : ℤ, 2 ≤ x → x < 10 → 2 ≤ y → y < 11 → ∀ k, exTwo.InnerH k ![x, y] := by
    intro x y h1 h2 h3 h4 k
    refine ⟨fun j => ?_, ?_⟩
    · fin_cases j <;> simp [exTwo, exAFree, exA, Acc.pad, exN] <;> omega
    · fin_cases k <;> simp [exTwo, exAFree, exA, Acc.pad, exN] <;> omega
  refine ⟨exAFree_wf.w0_nonneg, exAFree_wf.w1_nonneg, fun k => ?_, fun _ _ _ => rfl, fun _ _ _ => rfl,
    fun _ _ _ => rfl, fun _ _ _ => rfl, fun i c h => ?_, fun k i c h => ?_, fun i c h => ?_,
    fun k i c h => ?_⟩
  · fin_cases k <;> simp [exTwo, exAFree, exA, Acc.pad, exN]
  · simp only [exTwo, exAFree, exA] at h
    split_ifs at h
    rw [← Option.some.inj h]
    exact (inn 4 5 (by omega) (by omega) (by omega) (by omega) 0).1
  · rw [← Option.some.inj h]
    exact inn 5 5 (by omega) (by omega) (by omega) (by omega) k
  · rw [← Option.some.inj h]
    exact (inn 4 7 (by omega) (by omega) (by omega) (by omega) 0).1
  · rw [← Option.some.inj h]
    exact inn 6 6 (by omega) (by omega) (by omega) (by omega) k

example : ∃ r, exTwo.forward true true none 100 (fun _ _ => 0) (fun _ _ _ => 0) (exWf ℝ).toInit = .ok r ∧
    exTwo.userNorm r.out.p r.out.v ≤ 4 * exTwo.userNorm (exWf ℝ).p (exWf ℝ).v :=
  C68_stable_accuracy_two exTwo_wf exAFree_nopml rfl (1 / 100) exFv exTwoRho
    ⟨rfl, rfl, by norm_num, exAFree_models.v_ne, fun c _ => by
      unfold exTwoRho
      split_ifs <;> norm_num⟩ _ 5 1 exAFree_cfl
    (fun c hc => by
      have h1 : (1 : ℤ) ≤ c 0 ∧ c 0 < 12 - 1 + 1 := hc 0
      have h2 : (1 : ℝ) ≤ c 0 := by exact_mod_cast h1.1
      have h3 : (c 0 : ℝ) ≤ 11 := by exact_mod_cast (by omega : c 0 ≤ 11)
      unfold exFv
      rw [abs_le]; constructor <;> linarith) (by decide) _ _ _ _ (by decide) _

/-! ### The condition on the density cannot be dropped -/

/-- The cell with index `x`. -/
def cl (x : ℤ) : Cell 1 := fun _ => x

theorem cl_shift (x j : ℤ) (k : Fin 1) : (cl x).shift k j = cl (x + j) := by
  funext i
  have : i = k := Subsingleton.elim _ _
  subst this
  rw [Cell.shift_same]
  rfl

theorem cl_surj (c : Cell 1) : c = cl (c 0) := by
  funext i
  have : i = 0 := Subsingleton.elim _ _
  subst this
  rfl

/-- Density of three cells, padded by replication: `1, 1, 46080`. -/
noncomputable def badRho : Fld 1 ℝ := fun c => if c 0 ≤ 3 then 1 else 46080

/-- Three cells, accuracy 4, velocity 1, grid spacing 1, time step 1/2. -/
noncomputable def bad : Cfg 1 0 0 (fun _ => 0) (fun _ => 0) ℝ where
  acc := .a4
  n := fun _ => 6
  w0 := fun _ => 0
  w1 := fun _ => 0
  dx := fun _ => 1
  dt := 1 / 2
  a := fun _ _ => 0
  b := fun _ _ => 0
  ah := fun _ _ => 0
  bh := fun _ _ => 0
  K := prepareK (fun _ => 1) badRho
  B := prepareB (fun _ => 6) (1 / 100) badRho
  srcP := fun _ => none
  srcV := fun _ _ => none
  rcvP := fun _ => none
  rcvV := fun _ _ => none
  ratio := 1

theorem bad_wf : bad.WF :=
  ⟨fun _ => le_refl 0, fun _ => le_refl 0, fun _ => by simp [bad, Acc.pad], fun _ _ _ => rfl,
    fun _ _ _ => rfl, fun _ _ _ => rfl, fun _ _ _ => rfl, nofun, nofun, nofun, nofun⟩

theorem bad_models : bad.FromModels (1 / 100) (fun _ => 1) badRho where
  K := rfl
  B := rfl
  rfmax_pos := by norm_num
  v_ne := fun _ _ => one_ne_zero
  rho_big := fun c _ => by
    unfold badRho
    split_ifs <;> norm_num

theorem bad_cfl : Setup.cflConditionN (List.ofFn bad.dx) (1 / 2) 1 = .ok (bad.dt, 1) := by
  have edx : List.ofFn bad.dx = [1] := by simp [bad, List.ofFn_succ]
  obtain ⟨h, r, h1, h2, h3, -, -, h4⟩ := Setup.C13_internal_time_step [1] (by simp) (by simp) 1
    (by norm_num) (1 / 2) (by norm_num)
  have hr : r = 1 := by
    refine le_antisymm ((h4 1 one_pos).1 ?_) h2
    simp only [Setup.courant, Nat.cast_one, div_one, List.map_cons, List.map_nil, List.sum_cons,
      List.sum_nil]
    rw [abs_of_pos (by norm_num : (0 : ℝ) < 1 / 2)]
    norm_num
  subst hr
  rw [edx, h1]
  have : h = 1 / 2 := by simpa using h3
  rw [this]
  rfl

theorem bad_inner (x : ℤ) : bad.Inner (cl x) ↔ 2 ≤ x ∧ x < 5 := by
  constructor
  · intro h
    have h1 : (2 : ℤ) ≤ x ∧ x < 6 - 2 + 1 := h 0
    omega
  · intro h _
    change (2 : ℤ) ≤ x ∧ x < 6 - 2 + 1
    omega

theorem bad_innerH (x : ℤ) : bad.InnerH 0 (cl x) ↔ 2 ≤ x ∧ x < 4 := by
  constructor
  · rintro ⟨h1, h2⟩
    have h3 := (bad_inner x).1 h1
    have h4 : x < 6 - 2 := h2
    omega
  · intro h
    exact ⟨(bad_inner x).2 (by omega), by change x < 6 - 2; omega⟩

theorem bad_next {s : Wavefields 1 ℝ} (hs : bad.Good s) :
    let s' := bad.next (fun _ => 0) (fun _ _ => 0) s
    s'.v 0 (cl 2) = s.v 0 (cl 2) - 1 / 2 * (9 / 8 * (s.p (cl 3) - s.p (cl 2)) - s.p (cl 4) / 24) ∧
    s'.v 0 (cl 3) = s.v 0 (cl 3) -
      1 / 2 * (2 / 46081) * (9 / 8 * (s.p (cl 4) - s.p (cl 3)) + s.p (cl 2) / 24) ∧
    s'.p (cl 2) = s.p (cl 2) - 1 / 2 * (9 / 8 * s'.v 0 (cl 2) - s'.v 0 (cl 3) / 24) ∧
    s'.p (cl 3) = s.p (cl 3) - 1 / 2 * (9 / 8 * (s'.v 0 (cl 3) - s'.v 0 (cl 2))) ∧
    s'.p (cl 4) = s.p (cl 4) - 1 / 2 * 46080 * (s'.v 0 (cl 2) / 24 - 9 / 8 * s'.v 0 (cl 3)) := by
  intro s'
  have hm := (FromModels.facts bad_models).2
  have g' : bad.Good s' := next_good bad_wf _ _ hs
  have hdt : bad.dt = 1 / 2 := rfl
  have p0 : ∀ x, ¬(2 ≤ x ∧ x < 5) → s.p (cl x) = 0 := fun x hx => hs.p _ fun h => hx ((bad_inner x).1 h)
  have v0 : ∀ x, ¬(2 ≤ x ∧ x < 4) → s'.v 0 (cl x) = 0 :=
    fun x hx => g'.v 0 _ fun h => hx ((bad_innerH x).1 h)
  have ev : ∀ x, 2 ≤ x ∧ x < 4 → s'.v 0 (cl x) = s.v 0 (cl x) - 1 / 2 * bad.B 0 (cl x) *
      (9 / 8 * (s.p (cl (x + 1)) - s.p (cl (x + 0))) + (-1) / 24 * (s.p (cl (x + 2)) - s.p (cl (x + -1)))) := by
    intro x hx
    have hi := (bad_innerH x).2 hx
    have e : bad.DH 0 s.p (cl x) = 9 / 8 * (s.p (cl (x + 1)) - s.p (cl (x + 0)))
        + (-1) / 24 * (s.p (cl (x + 2)) - s.p (cl (x + -1))) := by
      simp only [Cfg.DH, DSH, cl_shift]
      simp [bad, cSH1]
    rw [← e]
    simp only [s', Cfg.next, Cfg.halfP, Cfg.halfV, inject_zero', Cfg.gradP, Cfg.psi', hi, if_true]
    simp [bad]
  have ep : ∀ x, 2 ≤ x ∧ x < 5 → s'.p (cl x) = s.p (cl x) - 1 / 2 * bad.K (cl x) *
      (9 / 8 * (s'.v 0 (cl (x + 0)) - s'.v 0 (cl (x + -1)))
        + (-1) / 24 * (s'.v 0 (cl (x + 1)) - s'.v 0 (cl (x + -2)))) := by
    intro x hx
    have hi := (bad_inner x).2 hx
    have e : bad.DI 0 (s'.v 0) (cl x) = 9 / 8 * (s'.v 0 (cl (x + 0)) - s'.v 0 (cl (x + -1)))
        + (-1) / 24 * (s'.v 0 (cl (x + 1)) - s'.v 0 (cl (x + -2))) := by
      simp only [Cfg.DI, DS, cl_shift]
      simp [bad, cS1]
    rw [← e]
    have e2 : ∀ u phi, bad.phi' 0 u phi (cl x) = 0 := by
      intro u phi
      simp only [Cfg.phi', hi, if_true]
      simp [bad]
    have e3 : s'.p (cl x) = s.p (cl x) - bad.dt * bad.K (cl x) *
        bad.divV (bad.halfV (fun _ _ => 0) s) (cl x) + inject bad.srcP (fun _ => 0) (cl x) := rfl
    rw [e3, inject_zero', Cfg.divV, if_pos hi, Fin.sum_univ_one, e2, hdt]
    simp only [add_zero]
    rfl
  have hB2 : bad.B 0 (cl 2) = 1 := by
    rw [(hm 0 _ ((bad_innerH 2).2 (by norm_num))).2, cl_shift]
    simp [badRho, cl]
  have hB3 : bad.B 0 (cl 3) = 2 / 46081 := by
    rw [(hm 0 _ ((bad_innerH 3).2 (by norm_num))).2, cl_shift]
    simp [badRho, cl]; norm_num
  have hK : ∀ x, bad.K (cl x) = badRho (cl x) := fun x => by simp [bad, prepareK]
  have e2 := ev 2 (by norm_num)
  have e3 := ev 3 (by norm_num)
  have f2 := ep 2 (by norm_num)
  have f3 := ep 3 (by norm_num)
  have f4 := ep 4 (by norm_num)
  rw [hB2] at e2
  rw [hB3] at e3
  rw [hK] at f2 f3 f4
  have r2 : badRho (cl 2) = 1 := by simp [badRho, cl]
  have r3 : badRho (cl 3) = 1 := by simp [badRho, cl]
  have r4 : badRho (cl 4) = 46080 := by simp [badRho, cl]
  rw [r2] at f2
  rw [r3] at f3
  rw [r4] at f4
  have a1 := p0 1 (by norm_num)
  have a5 := p0 5 (by norm_num)
  have b0 := v0 0 (by norm_num)
  have b1 := v0 1 (by norm_num)
  have b4 := v0 4 (by norm_num)
  have b5 := v0 5 (by norm_num)
  norm_num [a1, a5, b0, b1, b4, b5] at e2 e3 f2 f3 f4
  refine ⟨?_, ?_, ?_, ?_, ?_⟩
  · rw [e2]; ring
  · rw [e3]; ring
  · rw [f2]; ring
  · rw [f3]
  · rw [f4]; ring

/-- The cone that a step maps to itself while the pressure of the dense cell grows. -/
structure Cone (s : Wavefields 1 ℝ) (q : ℝ) : Prop where
  q_pos : 0 < q
  p4 : |s.p (cl 4)| = 46080 * q
  v2 : |s.v 0 (cl 2)| ≤ 960 * (q / 5)
  v3 : |s.v 0 (cl 3)| ≤ q / 2
  p2 : |s.p (cl 2)| ≤ 65 * q
  p3 : |s.p (cl 3)| ≤ 65 * q

theorem cone_real {v2 v3 p2 p3 V2 V3 P2 P3 P4 q : ℝ} (hq : 0 < q)
    (e2 : V2 = v2 - 1 / 2 * (9 / 8 * (p3 - p2) - 46080 * q / 24))
    (e3 : V3 = v3 - 1 / 2 * (2 / 46081) * (9 / 8 * (46080 * q - p3) + p2 / 24))
    (f2 : P2 = p2 - 1 / 2 * (9 / 8 * V2 - V3 / 24)) (f3 : P3 = p3 - 1 / 2 * (9 / 8 * (V3 - V2)))
    (f4 : P4 = 46080 * q - 1 / 2 * 46080 * (V2 / 24 - 9 / 8 * V3))
    (h2 : |v2| ≤ 960 * (q / 5)) (h3 : |v3| ≤ q / 2) (k2 : |p2| ≤ 65 * q) (k3 : |p3| ≤ 65 * q) :
    P4 ≤ -46080 * (12.5 * q) ∧ |V2| ≤ 960 * (12.5 * q / 5) ∧ |V3| ≤ 12.5 * q / 2 ∧
      |P2| ≤ 65 * (12.5 * q) ∧ |P3| ≤ 65 * (12.5 * q) := by
  rw [abs_le] at h2 h3 k2 k3
  obtain ⟨h2a, h2b⟩ := h2
  obtain ⟨h3a, h3b⟩ := h3
  obtain ⟨k2a, k2b⟩ := k2
  obtain ⟨k3a, k3b⟩ := k3
  have V2a : 694 * q ≤ V2 := by linarith
  have V2b : V2 ≤ 1226 * q := by linarith
  have V3a : -(1.64 * q) ≤ V3 := by linarith
  have V3b : V3 ≤ 1.64 * q := by linarith
  clear e2 e3
  refine ⟨by linarith, abs_le.2 ⟨by linarith, by linarith⟩, abs_le.2 ⟨by linarith, by linarith⟩,
    abs_le.2 ⟨by linarith, by linarith⟩, abs_le.2 ⟨by linarith, by linarith⟩⟩

theorem cone_next {s : Wavefields 1 ℝ} (hs : bad.Good s) {q : ℝ} (hc : Cone s q) :
    ∃ q', 12 * q ≤ q' ∧ Cone (bad.next (fun _ => 0) (fun _ _ => 0) s) q' := by
  obtain ⟨e2, e3, f2, f3, f4⟩ := bad_next hs
  obtain ⟨h0, h4, h2, h3, k2, k3⟩ := hc
  set s' := bad.next (fun _ => 0) (fun _ _ => 0) s
  refine ⟨|s'.p (cl 4)| / 46080, ?_⟩
  rcases abs_eq (by positivity) |>.1 h4 with hp | hp
  · rw [hp] at e2 e3 f4
    obtain ⟨g1, g2, g3, g4, g5⟩ := cone_real h0 e2 e3 f2 f3 f4 h2 h3 k2 k3
    have hP : |s'.p (cl 4)| = -s'.p (cl 4) := abs_of_neg (by linarith)
    have hle : 12.5 * q ≤ |s'.p (cl 4)| / 46080 := by rw [hP, le_div_iff₀ (by norm_num)]; linarith
    exact ⟨by linarith, by linarith, by ring, by linarith, by linarith, by linarith, by linarith⟩
  · rw [hp] at e2 e3 f4
    obtain ⟨g1, g2, g3, g4, g5⟩ := cone_real (v2 := -s.v 0 (cl 2)) (v3 := -s.v 0 (cl 3))
      (p2 := -s.p (cl 2)) (p3 := -s.p (cl 3)) (V2 := -s'.v 0 (cl 2)) (V3 := -s'.v 0 (cl 3))
      (P2 := -s'.p (cl 2)) (P3 := -s'.p (cl 3)) (P4 := -s'.p (cl 4)) h0
      (by rw [e2]; ring) (by rw [e3]; ring) (by rw [f2]; ring) (by rw [f3]; ring) (by rw [f4]; ring)
      (by rwa [abs_neg]) (by rwa [abs_neg]) (by rwa [abs_neg]) (by rwa [abs_neg])
    rw [abs_neg] at g2 g3 g4 g5
    have hP : |s'.p (cl 4)| = s'.p (cl 4) := abs_of_pos (by linarith)
    have hle : 12.5 * q ≤ |s'.p (cl 4)| / 46080 := by rw [hP, le_div_iff₀ (by norm_num)]; linarith
    exact ⟨by linarith, by linarith, by ring, by linarith, by linarith, by linarith, by linarith⟩

/-- **C68** The condition on the density cannot be dropped for accuracies above 2: there are positive
velocities and densities for which the time step chosen by `cfl_condition_n` lets a wavefield grow by
more than a factor of 12 in every step. -/
theorem C68_unstable_for_large_contrast :
    ∃ (C : Cfg 1 0 0 (fun _ => 0) (fun _ => 0) ℝ) (rfmax : ℝ) (v rho : Fld 1 ℝ) (userDt vmax : ℝ) (m : ℤ)
      (w : Init 1 ℝ), C.WF ∧ C.NoPml ∧ C.FromModels rfmax v rho ∧
      Setup.cflConditionN (List.ofFn C.dx) userDt vmax = .ok (C.dt, m) ∧ (∀ c, |v c| ≤ vmax) ∧
      C.ratio = 1 ∧ ∀ nt, ∃ r, C.forward false false none nt (fun _ _ => 0) (fun _ _ _ => 0) w = .ok r ∧
        ∃ c, (∀ k, 0 ≤ c k ∧ c k < C.shape k) ∧ 12 ^ nt ≤ |r.out.p c| := by
  let w : Init 1 ℝ := ⟨some fun c => if c 0 = 2 then 46080 else 0, fun _ => none, fun _ => none,
    fun _ => none⟩
  refine ⟨bad, 1 / 100, fun _ => 1, badRho, 1 / 2, 1, 1, w, bad_wf, fun _ _ => ⟨rfl, rfl, rfl, rfl⟩,
    bad_models, bad_cfl, fun _ => by simp, rfl, fun nt => ?_⟩
  have hg := fun n => run_good bad_wf (fun _ _ => (0 : ℝ)) (fun _ _ _ => (0 : ℝ)) (prepare_good w) n
  have hcone : ∀ n, ∃ q, 12 ^ n ≤ q ∧
      Cone (bad.run (fun _ _ => 0) (fun _ _ _ => 0) (bad.prepare w) n) q := by
    intro n
    induction n with
    | zero =>
        have hp : ∀ x, 2 ≤ x ∧ x < 5 → (bad.prepare w).p (cl x) = if x = 4 then 46080 else 0 := by
          intro x hx
          have e : (bad.prepare w).p (cl x) = if bad.Inner (cl x) then
            (if x - 2 = 2 then (46080 : ℝ) else 0) else 0 := rfl
          rw [e, if_pos ((bad_inner x).2 hx)]
          by_cases h : x = 4
          · rw [if_pos h, if_pos (by omega)]
          · rw [if_neg h, if_neg (by omega)]
        have hv : ∀ c, (bad.prepare w).v 0 c = 0 := by
          intro c
          have e : (bad.prepare w).v 0 c = if c 0 = bad.n 0 - bad.acc.pad then (0 : ℝ) else 0 := rfl
          rw [e]
          split_ifs <;> rfl
        refine ⟨1, by norm_num, by norm_num, ?_, ?_, ?_, ?_, ?_⟩
        · change |(bad.prepare w).p (cl 4)| = _
          rw [hp 4 (by norm_num)]; norm_num
        · change |(bad.prepare w).v 0 _| ≤ _
          rw [hv]; norm_num
        · change |(bad.prepare w).v 0 _| ≤ _
          rw [hv]; norm_num
        · change |(bad.prepare w).p (cl 2)| ≤ _
          rw [hp 2 (by norm_num)]; norm_num
        · change |(bad.prepare w).p (cl 3)| ≤ _
          rw [hp 3 (by norm_num)]; norm_num
    | succ n ih =>
        obtain ⟨q, hq, hc⟩ := ih
        obtain ⟨q', hq', hc'⟩ := cone_next (hg n) hc
        refine ⟨q', ?_, hc'⟩
        rw [pow_succ]
        linarith
  refine ⟨_, forward_eq bad_wf false false none nt _ _ w (by decide)
    (fun h => by change 0 < nt / 1; simpa using h), fun _ => 2, fun k => ?_, ?_⟩
  · change (0 : ℤ) ≤ 2 ∧ (2 : ℤ) < 6 - 2 * (4 / 2 : ℕ) + 1
    norm_num
  · obtain ⟨q, hq, hc⟩ := hcone nt
    have e1 : nt / bad.ratio * bad.ratio = nt := by change nt / 1 * 1 = nt; simp
    simp only [e1]
    have e2 : (bad.unpadAll (bad.run (fun _ _ => 0) (fun _ _ _ => 0) (bad.prepare w) nt)).p (fun _ => 2) =
        (bad.run (fun _ _ => 0) (fun _ _ _ => 0) (bad.prepare w) nt).p (cl 4) := rfl
    rw [e2, hc.p4]
    have := hc.q_pos
    linarith

end Dw.Acoustic
