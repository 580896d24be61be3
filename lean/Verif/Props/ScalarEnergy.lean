import Verif.Scalar.Stability
import Verif.Scalar.Example
import Verif.Scalar.Linear
import Verif.Props.Cfl

/-!
# Stability of the scalar propagator without PML
-/

namespace Dw.Scalar

variable {d ns nr : ℕ} {C : Cfg d ns nr ℝ}

/-- A wavefield of the user's shape, extended by zero. -/
noncomputable def zeroExt (shape : Fin d → ℤ) (u : Fld d ℝ) : Fld d ℝ := by
  classical exact fun c => if ∀ k, 0 ≤ c k ∧ c k < shape k then u c else 0

/-- Shape of the wavefields which the user receives. -/
def Cfg.shape (C : Cfg d ns nr ℝ) : Fin d → ℤ := fun k => C.n k - 2 * (C.acc.order / 2 : ℕ)

/-- Energy of two wavefields of the user's shape: the velocity at a cell of the user's shape is
`accuracy / 2` further in the padded model. -/
noncomputable def Cfg.userEnergy (C : Cfg d ns nr ℝ) (u p : Fld d ℝ) : ℝ :=
  waveEnergy C.acc (box (fun _ => 0) C.shape) C.dx C.dt
    (fun c => C.v fun k => c k + (C.acc.order / 2 : ℕ)) (zeroExt C.shape u) (zeroExt C.shape p)

theorem Cfg.userEnergy_eq (C : Cfg d ns nr ℝ) (u p : Fld d ℝ) :
    C.userEnergy u p = waveEnergy C.acc C.S C.dx C.dt C.v
      (C.createOrPad (some u)) (C.createOrPad (some p)) := by
  have hin : ∀ c : Cell d, (∀ k, 0 ≤ c k ∧ c k < C.shape k) ↔ C.Inner fun k => c k + (C.acc.pad : ℤ) := by
    intro c
    constructor
    · intro h k
      have := h k
      simp only [Cfg.shape, Acc.order_div_two] at this
      simp only
      constructor <;> omega
    · intro h k
      have := h k
      simp only at this
      simp only [Cfg.shape, Acc.order_div_two]
      constructor <;> omega
  have hpad : ∀ (w : Fld d ℝ) (c : Cell d),
      C.createOrPad (some w) (fun k => c k + (C.acc.pad : ℤ)) = zeroExt C.shape w c := by
    intro w c
    simp only [Cfg.createOrPad, zeroExt]
    by_cases hc : C.Inner fun k => c k + (C.acc.pad : ℤ)
    · rw [if_pos hc, if_pos ((hin c).2 hc)]
      congr 1; funext k; ring
    · rw [if_neg hc, if_neg fun h => hc ((hin c).1 h)]
  have hsum : ∀ F : Fld d ℝ, ∑ c ∈ C.S, F c =
      ∑ c ∈ box (fun _ => 0) C.shape, F fun k => c k + (C.acc.pad : ℤ) := by
    intro F
    symm
    refine Finset.sum_bij (fun c _ => fun k => c k + (C.acc.pad : ℤ)) ?_ ?_ ?_ ?_
    · intro c hc
      exact Cfg.mem_S.2 ((hin c).1 (mem_box.1 hc))
    · intro c _ c' _ h
      funext k
      have := congrFun h k
      simpa using this
    · intro c hc
      refine ⟨fun k => c k - (C.acc.pad : ℤ), mem_box.2 ((hin _).2 ?_), ?_⟩
      · have e : (fun k => c k - (C.acc.pad : ℤ) + (C.acc.pad : ℤ)) = c := by funext k; ring
        simp only [e]
        exact Cfg.mem_S.1 hc
      · funext k; ring
    · intro c _; rfl
  have hlap : ∀ (w : Fld d ℝ) (c : Cell d),
      laplacian C.acc C.dx (C.createOrPad (some w)) (fun k => c k + (C.acc.pad : ℤ)) =
        laplacian C.acc C.dx (zeroExt C.shape w) c := by
    intro w c
    simp only [laplacian]
    refine Finset.sum_congr rfl fun k _ => ?_
    congr 1
    funext j
    rw [← hpad]
    congr 1
    funext i
    simp only [Cell.shift, Pi.add_apply]
    ring
  simp only [Cfg.userEnergy, waveEnergy, hsum, hpad, hlap, Acc.order_div_two]

/-- **C14** Without PML and sources, the energy of the wavefields returned is the energy of the
wavefields given, however many steps are made and whatever the callback frequency. -/
theorem C14_energy_conserved (h : C.WF) (hn : C.NoPml) (hdt : C.dt ≠ 0)
    (hv : ∀ c, C.Inner c → C.v c ≠ 0) (hr : 0 < C.ratio) (g : Bool) (cb : Option ℕ) (nt : ℕ)
    (hcf : 0 < nt → 0 < cb.getD (nt / C.ratio)) (w : Init d ℝ) :
    ∃ r, C.forward g cb nt (fun _ _ => 0) w = .ok r ∧
      C.userEnergy r.out.wfc r.out.wfp =
        C.userEnergy (w.wfc.getD fun _ => 0) (w.wfp.getD fun _ => 0) := by
  refine ⟨_, C.forward_eq h g cb nt _ w hr hcf, ?_⟩
  have hg := C.run_good h (fun _ _ => 0) 0 (C.start_good w) (nt / C.ratio * C.ratio)
  have e : ∀ o : Option (Fld d ℝ), C.createOrPad (some (o.getD fun _ => 0)) = C.createOrPad o := by
    intro o
    cases o with
    | none => funext c; simp [Cfg.createOrPad]
    | some u => rfl
  rw [Cfg.userEnergy_eq, Cfg.userEnergy_eq, e, e]
  simp only [Cfg.outOf]
  rw [C.createOrPad_unpad _ hg.u, C.createOrPad_unpad _ hg.p,
    C.energy_run h hn hdt hv (C.start_good w) _ 0 (fun _ _ => rfl)]
  rfl

open Setup in
theorem Cfg.cflAt {userDt vmax : ℝ} {k : ℤ} (hcfl : cflConditionN (List.ofFn C.dx) userDt vmax = .ok (C.dt, k))
    (hvmax : ∀ c, C.Inner c → |C.v c| ≤ vmax) : CflAt C.S C.dx C.dt C.v ∧ C.dt ≠ 0 ∧ ∀ i, 0 < C.dx i := by
  have hok : ¬∃ e, cflConditionN (List.ofFn C.dx) userDt vmax = .error e := by
    rintro ⟨e, he⟩
    rw [he] at hcfl
    cases hcfl
  have hrej : ¬(List.ofFn C.dx = [] ∨ (∃ g ∈ List.ofFn C.dx, g ≤ 0) ∨ vmax ≤ 0 ∨ userDt = 0) :=
    fun hh => hok (C13_rejects _ _ _ hh)
  push Not at hrej
  obtain ⟨h1, h2, h3, h4⟩ := hrej
  obtain ⟨x, r, e, hr, hx, hsgn, hcour, -⟩ := C13_internal_time_step _ h1 h2 vmax h3 userDt h4
  rw [e] at hcfl
  obtain ⟨rfl, rfl⟩ : x = C.dt ∧ r = k := by simpa using hcfl
  have hdx : ∀ i, 0 < C.dx i := fun i => h2 _ (by simp)
  refine ⟨fun c hc => ?_, ?_, hdx⟩
  · have hs : ((List.ofFn C.dx).map fun g => 1 / g ^ 2).sum = ∑ k, 1 / C.dx k ^ 2 := by
      rw [List.map_ofFn, List.sum_ofFn]
      rfl
    have hnn : 0 ≤ ∑ k, 1 / C.dx k ^ 2 := Finset.sum_nonneg fun _ _ => by positivity
    have hvc := hvmax c (Cfg.mem_S.1 hc)
    unfold courant at hcour
    rw [hs] at hcour
    have hle : |C.v c| * |C.dt| * Real.sqrt (∑ k, 1 / C.dx k ^ 2) ≤ 6 / 10 :=
      le_trans (mul_le_mul_of_nonneg_right (mul_le_mul_of_nonneg_right hvc (abs_nonneg _))
        (Real.sqrt_nonneg _)) hcour
    have hnn2 : 0 ≤ |C.v c| * |C.dt| * Real.sqrt (∑ k, 1 / C.dx k ^ 2) := by positivity
    have e2 : (C.v c * C.dt) ^ 2 * ∑ k, 1 / C.dx k ^ 2 =
        (|C.v c| * |C.dt| * Real.sqrt (∑ k, 1 / C.dx k ^ 2)) ^ 2 := by
      rw [← abs_mul, mul_pow |C.v c * C.dt|, sq_abs, Real.sq_sqrt hnn]
    rw [e2]
    nlinarith
  · rintro h0
    simp [h0] at hsgn

/-- The bound for the reference recursion. -/
theorem Cfg.run_bound (h : C.WF) (hn : C.NoPml) (hc : CflAt C.S C.dx C.dt C.v) (hdt : C.dt ≠ 0)
    (hdx : ∀ i, 0 < C.dx i) (hv : ∀ c, C.Inner c → C.v c ≠ 0) {s : St d ℝ} (hs : C.Good s)
    (f : ℕ → Fin ns → ℝ) (t : ℕ) (hf : ∀ t', t ≤ t' → f t' = fun _ => 0) (n : ℕ) (c : Cell d)
    (k : Fin d) :
    (C.run f t s n).u c ^ 2 ≤ (2 * C.shape k + 1) * C.dx k ^ 2 *
      waveEnergy C.acc C.S C.dx C.dt C.v s.u s.p := by
  have hsh : 0 ≤ C.shape k := by
    have := h.size k
    have := h.w0_nonneg k
    have := h.w1_nonneg k
    simp only [Cfg.shape, Acc.order_div_two]
    omega
  have hg := C.run_good h f t hs n
  rw [← C.energy_run h hn hdt hv hs f t hf n]
  have e : ((C.shape k).toNat : ℝ) = C.shape k := by
    have : (((C.shape k).toNat : ℕ) : ℤ) = C.shape k := Int.toNat_of_nonneg hsh
    exact_mod_cast this
  rw [← e]
  by_cases hcS : c ∈ C.S
  · refine sq_le_waveEnergy hdt (fun c hc => hv c (Cfg.mem_S.1 hc)) (Cfg.suppS hg).2
      (Cfg.suppS hg).1 hc k (hdx k).ne' c _ fun hmem => ?_
    have h1 := Cfg.mem_S.1 hcS k
    have h2 := Cfg.mem_S.1 hmem k
    simp only [Cell.shift_same, Cfg.shape, Acc.order_div_two] at h2
    simp only [Cfg.shape, Acc.order_div_two] at hsh
    omega
  · rw [(Cfg.suppS hg).1 c hcS]
    have hcc : c.shift k ((C.n k).toNat + (c k).natAbs : ℕ) ∉ C.S := by
      intro hmem
      have h2 := Cfg.mem_S.1 hmem k
      simp only [Cell.shift_same] at h2
      omega
    have h0 := sq_le_waveEnergy (acc := C.acc) hdt (fun c hc => hv c (Cfg.mem_S.1 hc)) (Cfg.suppS hg).2
      (Cfg.suppS hg).1 hc k (hdx k).ne' c _ hcc
    have h1 : 0 ≤ waveEnergy C.acc C.S C.dx C.dt C.v (C.run f t s n).u (C.run f t s n).p := by
      by_contra hneg
      push Not at hneg
      have h3 : 0 < (2 * (((C.n k).toNat + (c k).natAbs : ℕ) : ℝ) + 1) * C.dx k ^ 2 := by
        have := hdx k
        positivity
      have := mul_neg_of_pos_of_neg h3 hneg
      have := sq_nonneg ((C.run f t s n).u c)
      linarith
    have : 0 ≤ (2 * ((C.shape k).toNat : ℝ) + 1) * C.dx k ^ 2 *
        waveEnergy C.acc C.S C.dx C.dt C.v (C.run f t s n).u (C.run f t s n).p := by positivity
    simpa using this

/-- **C14** Without PML and sources and with the internal time step chosen by `cfl_condition_n` for a
velocity `vmax` that is not exceeded, every value of the wavefield after any number of steps is
bounded by the initial energy, with a constant that depends on the number of cells and the
grid spacing only. -/
theorem C14_bounded_by_initial_energy (h : C.WF) (hn : C.NoPml) (userDt vmax : ℝ) (m : ℤ)
    (hcfl : Setup.cflConditionN (List.ofFn C.dx) userDt vmax = .ok (C.dt, m))
    (hvmax : ∀ c, C.Inner c → |C.v c| ≤ vmax) (hv : ∀ c, C.Inner c → C.v c ≠ 0)
    (hr : 0 < C.ratio) (g : Bool) (cb : Option ℕ) (nt : ℕ)
    (hcf : 0 < nt → 0 < cb.getD (nt / C.ratio)) (w : Init d ℝ) :
    ∃ r, C.forward g cb nt (fun _ _ => 0) w = .ok r ∧ ∀ k c,
      r.out.wfc c ^ 2 ≤ (2 * C.shape k + 1) * C.dx k ^ 2 *
        C.userEnergy (w.wfc.getD fun _ => 0) (w.wfp.getD fun _ => 0) := by
  obtain ⟨h1, h2, h3⟩ := C.cflAt hcfl hvmax
  refine ⟨_, C.forward_eq h g cb nt _ w hr hcf, fun k c => ?_⟩
  have e : ∀ o : Option (Fld d ℝ), C.createOrPad (some (o.getD fun _ => 0)) = C.createOrPad o := by
    intro o
    cases o with
    | none => funext c; simp [Cfg.createOrPad]
    | some u => rfl
  rw [Cfg.userEnergy_eq, e, e]
  exact C.run_bound h hn h1 h2 h3 hv (C.start_good w) _ 0 (fun _ _ => rfl) _ _ k

/-- With a source of finite duration the states of the reference recursion stay bounded. -/
theorem Cfg.run_bounded (hd : 0 < d) (h : C.WF) (hn : C.NoPml) (hc : CflAt C.S C.dx C.dt C.v) (hdt : C.dt ≠ 0)
    (hdx : ∀ i, 0 < C.dx i) (hv : ∀ c, C.Inner c → C.v c ≠ 0) (f : ℕ → Fin ns → ℝ) (T : ℕ)
    (hf : ∀ t, T ≤ t → ∀ i, f t i = 0) (w : Init d ℝ) :
    ∃ B : ℝ, 0 ≤ B ∧ ∀ n c, |(C.run f 0 (C.start w) n).u c| ≤ B := by
  have hgT := C.run_good h f 0 (C.start_good w) T
  let K := (2 * C.shape ⟨0, hd⟩ + 1) * C.dx ⟨0, hd⟩ ^ 2 *
    waveEnergy C.acc C.S C.dx C.dt C.v (C.run f 0 (C.start w) T).u (C.run f 0 (C.start w) T).p
  let A := ∑ n ∈ Finset.range T, ∑ c ∈ C.S, |(C.run f 0 (C.start w) n).u c|
  have hA : 0 ≤ A := Finset.sum_nonneg fun _ _ => Finset.sum_nonneg fun _ _ => abs_nonneg _
  refine ⟨A + Real.sqrt K, by positivity, fun n c => ?_⟩
  by_cases hnT : n < T
  · have hle : |(C.run f 0 (C.start w) n).u c| ≤ A := by
      by_cases hcS : c ∈ C.S
      · refine le_trans ?_ (Finset.single_le_sum (f := fun n => ∑ c ∈ C.S, |(C.run f 0 (C.start w) n).u c|)
          (fun _ _ => Finset.sum_nonneg fun _ _ => abs_nonneg _) (Finset.mem_range.2 hnT))
        exact Finset.single_le_sum (f := fun c => |(C.run f 0 (C.start w) n).u c|)
          (fun _ _ => abs_nonneg _) hcS
      · rw [(Cfg.suppS (C.run_good h f 0 (C.start_good w) n)).1 c hcS]
        simpa using hA
    have := Real.sqrt_nonneg K
    linarith
  · have e : n = T + (n - T) := by omega
    have hb := C.run_bound h hn hc hdt hdx hv hgT f T (fun t ht => funext fun i => hf t ht i) (n - T) c
      ⟨0, hd⟩
    have e2 : C.run f 0 (C.start w) n = C.run f T (C.run f 0 (C.start w) T) (n - T) := by
      conv_lhs => rw [e]
      rw [C.run_add, Nat.zero_add]
    rw [e2]
    have := Real.abs_le_sqrt hb
    linarith

/-- **C14** With a source of finite duration the wavefield and the recorded data stay bounded for
ever: one bound holds for all numbers of steps. -/
theorem C14_never_blows_up (hd : 0 < d) (h : C.WF) (hn : C.NoPml) (userDt vmax : ℝ) (m : ℤ)
    (hcfl : Setup.cflConditionN (List.ofFn C.dx) userDt vmax = .ok (C.dt, m))
    (hvmax : ∀ c, C.Inner c → |C.v c| ≤ vmax) (hv : ∀ c, C.Inner c → C.v c ≠ 0)
    (hr : 0 < C.ratio) (f : ℕ → Fin ns → ℝ) (T : ℕ) (hf : ∀ t, T ≤ t → ∀ i, f t i = 0) (w : Init d ℝ) :
    ∃ B : ℝ, ∀ (g : Bool) (cb : Option ℕ) (nt : ℕ), (0 < nt → 0 < cb.getD (nt / C.ratio)) →
      ∃ r, C.forward g cb nt f w = .ok r ∧ (∀ c, |r.out.wfc c| ≤ B) ∧ ∀ t i, |r.rcd t i| ≤ B := by
  obtain ⟨h1, h2, h3⟩ := C.cflAt hcfl hvmax
  have key : ∃ B : ℝ, 0 ≤ B ∧ ∀ n c, |(C.run f 0 (C.start w) n).u c| ≤ B := C.run_bounded hd h hn h1 h2 h3 hv f T hf w
  obtain ⟨B, hB, hb⟩ := key
  refine ⟨B, fun g cb nt hcf => ⟨_, C.forward_eq h g cb nt f w hr hcf, fun c => hb _ _, fun t i => ?_⟩⟩
  simp only
  split_ifs
  · cases hi : C.rcv i with
    | none => simpa [sample, hi] using hB
    | some c => simpa [sample, hi] using hb t c
  · simpa using hB

/-- The example without PML. -/
noncomputable def exFree : Cfg 2 2 1 ℝ :=
  { exCfgOf ℝ with a := fun _ _ => 0, b := fun _ _ => 0, db := fun _ _ => 0 }

theorem exFree_wf : exFree.WF :=
  { exCfgOf_wf ℝ with
    a_mid := fun _ _ _ => rfl, b_mid := fun _ _ _ => rfl, db_mid := fun _ _ _ _ => rfl }

theorem exFree_v (c : Cell 2) (hc : exFree.Inner c) : |exFree.v c| ≤ 5 ∧ exFree.v c ≠ 0 := by
  have h := hc 0
  have e : exFree.v c = 3 + (c 0 : ℝ) / 10 := rfl
  have h1 : (1 : ℤ) ≤ c 0 ∧ c 0 < 12 - 1 := h
  have h2 : (1 : ℝ) ≤ c 0 := by exact_mod_cast h1.1
  have h3 : (c 0 : ℝ) ≤ 10 := by exact_mod_cast (by omega : c 0 ≤ 10)
  rw [e]
  constructor
  · rw [abs_le]; constructor <;> linarith
  · intro h0; linarith

theorem exFree_cfl : Setup.cflConditionN (List.ofFn exFree.dx) (1 / 10) 5 = .ok (exFree.dt, 1) := by
  have edx : List.ofFn exFree.dx = [1, 2] := by simp [exFree, exCfgOf, List.ofFn_succ]
  obtain ⟨h, r, h1, h2, h3, -, -, h4⟩ := Setup.C13_internal_time_step [1, 2] (by simp) (by simp) 5
    (by norm_num) (1 / 10) (by norm_num)
  have hr : r = 1 := by
    refine le_antisymm ((h4 1 one_pos).1 ?_) h2
    have hs : Real.sqrt (([1, 2] : List ℝ).map fun g => 1 / g ^ 2).sum ≤ 1.119 := by
      rw [Real.sqrt_le_left (by norm_num)]; norm_num
    simp only [Setup.courant, Nat.cast_one, div_one]
    rw [abs_of_pos (by norm_num : (0 : ℝ) < 1 / 10)]
    have := Real.sqrt_nonneg (([1, 2] : List ℝ).map fun g => 1 / g ^ 2).sum
    nlinarith
  subst hr
  rw [edx, h1]
  have : h = 1 / 10 := by simpa using h3
  rw [this]
  rfl

/-- The hypotheses of C14 hold for a model with variable velocity, a source and initial values. -/
example : ∃ B : ℝ, ∀ (g : Bool) (cb : Option ℕ) (nt : ℕ), (0 < nt → 0 < cb.getD (nt / exFree.ratio)) →
    ∃ r, exFree.forward g cb nt (fun t i => if t < 3 then exAmp ℝ t i else 0) (exInit ℝ) = .ok r ∧
      (∀ c, |r.out.wfc c| ≤ B) ∧ ∀ t i, |r.rcd t i| ≤ B :=
  C14_never_blows_up (by norm_num) exFree_wf (fun _ _ => ⟨rfl, rfl, rfl⟩) _ 5 1 exFree_cfl
    (fun c hc => (exFree_v c hc).1) (fun c hc => (exFree_v c hc).2) (by decide) _ 3
    (fun t ht i => if_neg (by omega)) _

end Dw.Scalar
