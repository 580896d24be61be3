import Verif.Scalar.Gradient
import Verif.Scalar.Example

/-!
# Properties of the scalar backward propagator

`C.backward grad cb nt store gr g` is the model of the backward autograd function: `store` are the
snapshots of the forward run, `gr` the gradient of the receiver data, `g` the gradient of the
final wavefields.  Its result has the velocity gradient `gv`, the source amplitude gradient `gf`,
the gradients `out` of the initial wavefields and the callback `events`.
-/

namespace Dw.Scalar

variable {d ns nr : ℕ} {R : Type*} [Field R] {C : Cfg d ns nr R}

/-! ## C04 -/

/-- Inner product of two sets of wavefields over a set of cells. -/
def Wavefields.inner (S : Finset (Cell d)) (w w' : Wavefields d R) : R :=
  ∑ c ∈ S, w.wfc c * w'.wfc c + ∑ c ∈ S, w.wfp c * w'.wfp c
    + ∑ k, ∑ c ∈ S, w.psi k c * w'.psi k c + ∑ k, ∑ c ∈ S, w.zeta k c * w'.zeta k c

/-- Inner product of two sets of traces. -/
def traceInner {m : ℕ} (nt : ℕ) (x y : ℕ → Fin m → R) : R :=
  ∑ t ∈ Finset.range nt, ∑ i, x t i * y t i

theorem Cfg.inner_out (s : St d R) (hs : C.Good s) (g : Wavefields d R) :
    (C.outOf s).inner C.userCells g = C.pair s (C.bStart g.toInit) := by
  simp only [Wavefields.inner, Cfg.outOf, C.sum_unpad_left, Cfg.pair, Cfg.bStart, Wavefields.toInit,
    C.dot_zeroInterior_right _ (hs.psi_mid _), C.dot_zeroInterior_right _ (hs.zeta_mid _)]
  rw [dot_neg_right]
  ring

theorem Cfg.inner_start (w : Wavefields d R) (l : St d R) (hl : C.Good l) :
    w.inner C.userCells ⟨C.unpad l.u, C.unpad fun c => -l.p c, fun k => C.unpad (l.psi k),
      fun k => C.unpad (l.zeta k)⟩ = C.pair (C.start w.toInit) l := by
  have hz : ∀ (k : Fin d) {u : Fld d R} (_ : ∀ c : Cell d, C.Mid k (c k) → u c = 0) (g : Fld d R),
      dot C.S (C.zeroInterior k g) u = dot C.S g u := by
    intro k u hu g
    rw [dot_comm, C.dot_zeroInterior_right k hu, dot_comm]
  simp only [Wavefields.inner, C.sum_unpad_right, Cfg.pair, Cfg.start, Wavefields.toInit,
    hz _ (hl.psi_mid _), hz _ (hl.zeta_mid _)]
  rw [dot_neg_right]
  ring

theorem traceInner_of_lt {m : ℕ} {T nt : ℕ} (hT : T ≤ nt) (x y : ℕ → Fin m → R) :
    traceInner nt x (fun t => if t < T then y t else fun _ => 0) =
      ∑ t ∈ Finset.range T, ∑ i, x t i * y t i := by
  rw [traceInner, ← Finset.sum_subset (Finset.range_mono hT)]
  · refine Finset.sum_congr rfl fun t ht => ?_
    rw [Finset.mem_range] at ht
    simp only [ht, if_true]
  · intro t _ ht
    rw [Finset.mem_range] at ht
    simp [ht]

/-- **C04** The dot-product test holds exactly: for all source amplitudes `f`, initial wavefields
`w`, receiver gradients `gr` and final wavefield gradients `g`, and whatever the callback
schedules of the two passes,
`⟨forward(f, w), (gr, g)⟩ = ⟨(f, w), backward(gr, g)⟩`.
Since the forward pass is linear (C10), the backward pass is its transpose. -/
theorem C04_backward_is_adjoint (h : C.WF) (hr : 0 < C.ratio) (grad grad' : Bool)
    (cb cb' : Option ℕ) (nt : ℕ) (hcf : 0 < nt → 0 < cb.getD (nt / C.ratio))
    (hcf' : 0 < nt → 0 < cb'.getD (nt / C.ratio)) (f : ℕ → Fin ns → R) (w : Wavefields d R)
    (gr : ℕ → Fin nr → R) (g : Wavefields d R) (store : ℕ → Fld d R) :
    ∃ r b, C.forward grad cb nt f w.toInit = .ok r ∧
      C.backward grad' cb' nt store gr g.toInit = .ok b ∧
      traceInner nt gr r.rcd + r.out.inner C.userCells g =
        traceInner nt f b.gf + w.inner C.userCells b.out := by
  refine ⟨_, _, C.forward_eq h grad cb nt f _ hr hcf,
    C.backward_eq h grad' cb' nt store gr _ hr hcf', ?_⟩
  set T := nt / C.ratio * C.ratio with hT
  have hTn : T ≤ nt := Nat.div_mul_le_self _ _
  have hg := C.start_good w.toInit
  have hl := C.bStart_good g.toInit
  simp only
  rw [traceInner_of_lt hTn, traceInner_of_lt hTn, C.inner_out _ (C.run_good h f 0 hg T),
    C.inner_start w _ (C.bRun_good h gr T hl T)]
  have := C.pair_run h hg hl f gr T
  linear_combination this

example : ∃ r b, exCfg.forward true (some 3) 14 (exAmp ℚ)
      (Wavefields.toInit ⟨fun c => c 0, fun _ => 1, fun _ _ => 2, fun _ c => c 1⟩) = .ok r ∧
    exCfg.backward true none 14 r.store (fun t _ => (t : ℚ) + 2)
      (Wavefields.toInit ⟨fun c => c 1, fun _ => 3, fun _ _ => 5, fun _ c => c 0⟩) = .ok b := by
  obtain ⟨r, b, h1, -⟩ := C04_backward_is_adjoint exCfg_wf (by decide) true true (some 3) none 14
    (by decide) (by decide) (exAmp ℚ) ⟨fun c => c 0, fun _ => 1, fun _ _ => 2, fun _ c => c 1⟩
    (fun t _ => (t : ℚ) + 2) ⟨fun c => c 1, fun _ => 3, fun _ _ => 5, fun _ c => c 0⟩ (fun _ _ => 0)
  obtain ⟨r', b, h1', h2, -⟩ := C04_backward_is_adjoint exCfg_wf (by decide) true true (some 3) none 14
    (by decide) (by decide) (exAmp ℚ) ⟨fun c => c 0, fun _ => 1, fun _ _ => 2, fun _ c => c 1⟩
    (fun t _ => (t : ℚ) + 2) ⟨fun c => c 1, fun _ => 3, fun _ _ => 5, fun _ c => c 0⟩ r.store
  exact ⟨r, b, h1, h2⟩

/-! ## C05 -/

/-- The cells of the (padded) velocity array. -/
def Cfg.modelCells (C : Cfg d ns nr R) : Finset (Cell d) := box (fun _ => 0) C.n

theorem Cfg.sum_modelCells {F : Fld d R} (hF : ∀ c, ¬C.Inner c → F c = 0) :
    ∑ c ∈ C.modelCells, F c = ∑ c ∈ C.S, F c := by
  symm
  refine Finset.sum_subset ?_ ?_
  · intro c hc
    rw [Cfg.mem_S] at hc
    simp only [Cfg.modelCells, mem_box]
    intro k
    have := hc k
    omega
  · intro c _ hc
    exact hF c fun hi => hc (Cfg.mem_S.2 hi)

/-- **C05** If snapshots are stored at every internal step (`ratio = 1`), the velocity gradient
returned by the backward pass is the derivative of the objective
`⟨gr, receiver data⟩ + ⟨g, final wavefields⟩` with respect to velocity: its inner product with any
perturbation `δ` is the derivative along `δ`. -/
theorem C05_velocity_gradient_exact {C : Cfg d ns nr ℝ} (h : C.WF) (hr : C.ratio = 1)
    (cb cb' : Option ℕ) (nt : ℕ) (hcf : 0 < nt → 0 < cb.getD nt) (hcf' : 0 < nt → 0 < cb'.getD nt)
    (f : ℕ → Fin ns → ℝ) (w g : Wavefields d ℝ) (gr : ℕ → Fin nr → ℝ) (δ : Fld d ℝ) :
    ∃ (r : ℝ → FwdResult d nr ℝ) (b : BwdResult d ns ℝ),
      (∀ e : ℝ, ({ C with v := fun c => C.v c + e * δ c } : Cfg d ns nr ℝ).forward true cb nt f
        w.toInit = .ok (r e)) ∧
      C.backward true cb' nt (r 0).store gr g.toInit = .ok b ∧
      HasDerivAt (fun e => traceInner nt gr (r e).rcd + (r e).out.inner C.userCells g)
        (∑ c ∈ C.modelCells, δ c * b.gv c) 0 := by
  have hr0 : 0 < C.ratio := by omega
  have hdiv : nt / C.ratio * C.ratio = nt := by rw [hr]; simp
  refine ⟨_, _, fun e => (C.pert δ e).forward_eq (C.pert_wf h δ e) true cb nt f _ hr0
    (by change 0 < nt → 0 < cb.getD (nt / C.ratio); rw [hr]; simpa using hcf),
    C.backward_eq h true cb' nt _ gr _ hr0 (by rw [hr]; simpa using hcf'), ?_⟩
  have hratio : ∀ e, (C.pert δ e).ratio = C.ratio := fun _ => rfl
  have hs : ∀ e, (C.pert δ e).start w.toInit = C.start w.toInit := fun _ => rfl
  simp only [hratio, hdiv, hs]
  set s := C.start w.toInit with hsdef
  have hl := C.bStart_good g.toInit
  have hrun := fun n => C.hasDeriv_run δ f s n
  -- the objective
  have hobj : ∀ e, traceInner nt gr (fun t => if t < nt then
        sample (C.pert δ e).rcv ((C.pert δ e).run f 0 s t).u else fun _ => 0)
      + ((C.pert δ e).outOf ((C.pert δ e).run f 0 s nt)).inner C.userCells g =
      C.pair ((C.pert δ e).run f 0 s nt) (C.bStart g.toInit)
        + ∑ t ∈ Finset.range nt, ∑ i, gr t i * sample C.rcv ((C.pert δ e).run f 0 s t).u i := by
    intro e
    rw [traceInner_of_lt le_rfl, add_comm]
    congr 1
    have gd := (C.pert δ e).run_good (C.pert_wf h δ e) f 0 ((C.pert δ e).start_good w.toInit) nt
    exact C.inner_out _ ⟨gd.u, gd.p, gd.psi, gd.zeta, gd.psi_mid, gd.zeta_mid⟩ g
  simp only [hobj]
  have hd : HasDerivAt (fun e => C.pair ((C.pert δ e).run f 0 s nt) (C.bStart g.toInit)
        + ∑ t ∈ Finset.range nt, ∑ i, gr t i * sample C.rcv ((C.pert δ e).run f 0 s t).u i)
      (C.pair (C.tRun f δ s nt) (C.bStart g.toInit)
        + ∑ t ∈ Finset.range nt, ∑ i, gr t i * sample C.rcv (C.tRun f δ s t).u i) 0 := by
    have hdot : ∀ (x : ℝ → Fld d ℝ) (x' y : Fld d ℝ), (∀ c, HasDerivAt (fun e => x e c) (x' c) 0) →
        HasDerivAt (fun e => dot C.S (x e) y) (dot C.S x' y) 0 := by
      intro x x' y hx
      simp only [dot]
      exact HasDerivAt.fun_sum fun c _ => (hx c).mul_const _
    refine HasDerivAt.add ?_ (HasDerivAt.fun_sum fun t _ => HasDerivAt.fun_sum fun i _ =>
      HasDerivAt.const_mul _ ?_)
    · exact (((hdot _ _ _ (hrun nt).u).sub (hdot _ _ _ (hrun nt).p)).add
        (HasDerivAt.fun_sum fun k _ => hdot _ _ _ ((hrun nt).psi k))).add
        (HasDerivAt.fun_sum fun k _ => hdot _ _ _ ((hrun nt).zeta k))
    · simp only [sample]
      cases C.rcv i with
      | none => exact hasDerivAt_const _ _
      | some c => exact (hrun t).u c
  refine hd.congr_deriv ?_
  rw [C.pair_tRun h s hl f δ gr nt]
  -- the gradient
  rw [C.sum_modelCells (F := fun c => δ c * _) (fun c hc => ?_)]
  · simp only [Finset.mul_sum]
    rw [Finset.sum_comm, ← Finset.sum_range_reflect]
    refine Finset.sum_congr rfl fun t ht => ?_
    rw [Finset.mem_range] at ht
    refine Finset.sum_congr rfl fun c hc => ?_
    rw [Cfg.mem_S] at hc
    have e1 : nt - 1 - (nt - 1 - t) = t := by omega
    simp only [Cfg.bGrad, hr, Nat.mod_one, hc, beq_self_eq_true, Bool.and_self, and_self, if_true, e1,
      Nat.div_one, Nat.cast_one, mul_one, true_and]
    rw [if_pos (by omega), C.pert_zero]
    ring
  · simp [Cfg.bGrad, hc]

/-- The hypotheses of C05 hold for the example with ratio 1. -/
example : ∃ (r : ℝ → FwdResult 2 1 ℝ) (b : BwdResult 2 2 ℝ),
    ({ exCfgOf ℝ with ratio := 1 } : Cfg 2 2 1 ℝ).backward true none 5 (r 0).store (fun _ _ => 1)
      (Wavefields.toInit ⟨fun _ => 1, fun _ => 2, fun _ _ => 3, fun _ _ => 4⟩) = .ok b := by
  have hw : ({ exCfgOf ℝ with ratio := 1 } : Cfg 2 2 1 ℝ).WF := { exCfgOf_wf ℝ with }
  obtain ⟨r, b, -, h2, -⟩ := C05_velocity_gradient_exact hw rfl none none 5 (by decide) (by decide)
    (exAmp ℝ) ⟨fun _ => 1, fun _ => 2, fun _ _ => 3, fun _ _ => 4⟩
    ⟨fun _ => 1, fun _ => 2, fun _ _ => 3, fun _ _ => 4⟩ (fun _ _ => 1) (fun c => c 0)
  exact ⟨r, b, h2⟩

/-! ## C42 -/

theorem Cfg.bRun_shift (gr : ℕ → Fin nr → R) (j T : ℕ) (s : St d R) (n : ℕ) (hn : n ≤ T) :
    C.bRun (fun t => gr (j + t)) T s n = C.bRun gr (j + T) s n := by
  induction n with
  | zero => rfl
  | succ n ih =>
      rw [Cfg.bRun, Cfg.bRun, ih (by omega)]
      congr 2
      omega

/-- **C42** With callback frequency `cf` and `N` outer steps, the backward callback runs at steps
`N - cf`, `N - 2 cf`, ... in decreasing order, the last being step 0, once each.  At step `e.step`
it sees the adjoint wavefields and the velocity gradient which a backward pass over only the
steps from `e.step` on returns, except that `wavefield_m1` is seen with the opposite sign. -/
theorem C42_backward_callback_events (h : C.WF) (hr : 0 < C.ratio) (grad : Bool) (nt cf : ℕ)
    (hcf : 0 < cf) (store : ℕ → Fld d R) (gr : ℕ → Fin nr → R) (g : Init d R) :
    ∃ b, C.backward grad (some cf) nt store gr g = .ok b ∧
      (b.events.map BwdEvent.step).Pairwise (· > ·) ∧
      (∀ j, j ∈ b.events.map BwdEvent.step ↔
        j < nt / C.ratio ∧ (j = 0 ∨ cf ∣ nt / C.ratio - j)) ∧
      ∀ e ∈ b.events, ∃ b', C.backward grad none ((nt / C.ratio - e.step) * C.ratio)
          (fun j => store (e.step + j)) (fun t => gr (e.step * C.ratio + t)) g = .ok b' ∧
        e.gv = b'.gv ∧ C.unpad e.wf.wfc = b'.out.wfc ∧
        C.unpad (fun c => -e.wf.wfp c) = b'.out.wfp ∧
        (∀ k, C.unpad (e.wf.psi k) = b'.out.psi k) ∧ ∀ k, C.unpad (e.wf.zeta k) = b'.out.zeta k := by
  refine ⟨_, C.backward_eq h grad (some cf) nt store gr g hr fun _ => hcf, ?_, ?_, ?_⟩
  all_goals set N := nt / C.ratio with hN
  · simp only [List.map_map]
    rw [List.pairwise_map]
    refine List.Pairwise.imp_of_mem ?_ List.pairwise_lt_range
    intro a b ha hb hab
    rw [List.mem_range] at ha hb
    simp only [Function.comp_apply, Cfg.bEventAt]
    have h1 : (b + 1) * cf ≤ N + cf - 1 :=
      (Nat.mul_le_mul_right cf hb).trans (Nat.div_mul_le_self _ _)
    have h2 : (a + 1) * cf ≤ b * cf := Nat.mul_le_mul_right _ hab
    rw [Nat.add_mul] at h1 h2 ⊢
    rw [Nat.add_mul]
    omega
  · intro j
    simp only [List.map_map, List.mem_map, List.mem_range, Function.comp_apply, Cfg.bEventAt]
    constructor
    · rintro ⟨i, hi, rfl⟩
      have h1 : (i + 1) * cf ≤ N + cf - 1 :=
        (Nat.mul_le_mul_right cf hi).trans (Nat.div_mul_le_self _ _)
      have h2 : 0 < (i + 1) * cf := Nat.mul_pos (Nat.succ_pos _) hcf
      have h3 : i * cf < N := by
        rw [Nat.add_mul] at h1; omega
      refine ⟨by omega, ?_⟩
      by_cases hle : (i + 1) * cf ≤ N
      · right
        rw [Nat.min_eq_right hle, Nat.sub_sub_self hle]
        exact Dvd.intro_left _ rfl
      · left; omega
    · rintro ⟨hj, rfl | hd⟩
      · refine ⟨(N - 1) / cf, ?_, ?_⟩
        · rw [Nat.lt_iff_add_one_le, Nat.le_div_iff_mul_le hcf, Nat.add_mul]
          have := Nat.div_mul_le_self (N - 1) cf
          omega
        · have h2 := Nat.div_add_mod (N - 1) cf
          have h3 := Nat.mod_lt (N - 1) hcf
          rw [Nat.mul_comm] at h2
          rw [Nat.add_mul]
          omega
      · obtain ⟨i, hi⟩ := hd
        have hi0 : 0 < i := by
          rcases Nat.eq_zero_or_pos i with h | h
          · subst h; omega
          · exact h
        refine ⟨i - 1, ?_, ?_⟩
        · rw [Nat.lt_iff_add_one_le, Nat.le_div_iff_mul_le hcf, Nat.sub_add_cancel hi0, Nat.mul_comm]
          omega
        · rw [Nat.sub_add_cancel hi0, Nat.mul_comm]
          omega
  · intro e he
    simp only [List.mem_map, List.mem_range] at he
    obtain ⟨i, hi, rfl⟩ := he
    set n := min N ((i + 1) * cf) with hn
    have hnN : n ≤ N := Nat.min_le_left _ _
    have hstep : (C.bEventAt grad store gr N (C.bStart g) n).step = N - n := rfl
    rw [hstep]
    have e1 : N - (N - n) = n := Nat.sub_sub_self hnN
    rw [e1]
    refine ⟨_, C.backward_eq h grad none (n * C.ratio) _ _ g hr ?_, ?_⟩
    · intro hp
      rw [Option.getD_none, Nat.mul_div_cancel _ hr]
      exact Nat.pos_of_mul_pos_right hp
    · have hT : (N - n) * C.ratio + n * C.ratio = N * C.ratio := by
        rw [← Nat.add_mul, Nat.sub_add_cancel hnN]
      have hb : ∀ m ≤ n * C.ratio, C.bRun (fun t => gr ((N - n) * C.ratio + t)) (n * C.ratio)
          (C.bStart g) m = C.bRun gr (N * C.ratio) (C.bStart g) m := by
        intro m hm
        rw [C.bRun_shift gr _ _ _ _ hm, hT]
      simp only [Nat.mul_div_cancel _ hr]
      rw [hb _ le_rfl]
      refine ⟨?_, rfl, rfl, fun _ => rfl, fun _ => rfl⟩
      funext c
      change ∑ m ∈ Finset.range (n * C.ratio),
        C.bGrad grad store gr (N * C.ratio) (C.bStart g) m c = _
      refine Finset.sum_congr rfl fun m hm => ?_
      rw [Finset.mem_range] at hm
      have e2 : N * C.ratio - 1 - m = (n * C.ratio - 1 - m) + (N - n) * C.ratio := by omega
      simp only [Cfg.bGrad]
      rw [hb m hm.le, e2, Nat.add_mul_mod_self_right, Nat.add_mul_div_right _ _ hr,
        Nat.add_comm _ (N - n)]

example : ∃ b, exCfg.backward true (some 3) 14 (fun _ _ => 1) (fun _ _ => 2) (exInit ℚ) = .ok b ∧
    ∀ j, j ∈ b.events.map BwdEvent.step ↔ j < 7 ∧ (j = 0 ∨ 3 ∣ 7 - j) := by
  obtain ⟨b, h1, -, h2, -⟩ := C42_backward_callback_events exCfg_wf (by decide) true 14 3 (by decide)
    (fun _ _ => 1) (fun _ _ => 2) (exInit ℚ)
  exact ⟨b, h1, h2⟩

end Dw.Scalar
