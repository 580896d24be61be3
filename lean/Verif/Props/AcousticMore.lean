import Verif.Acoustic.Python
import Verif.Core.Steps
import Verif.Props.Acoustic

/-!
# Further properties of the acoustic propagator

C33 (the two backends agree), C50 (callback schedules) and the failure of C31 for tiny models.
-/

namespace Dw.Acoustic

open Dw.Scalar (inject sample traceInner traceInner_of_lt exMid exN addTo)

variable {d np mp : ℕ} {nv mv : Fin d → ℕ}

section
variable {R : Type*} [Field R] {C : Cfg d np mp nv mv R}

/-! ## C33 -/

/-- **C33** The Python backend returns the same final wavefields and receiver data as the compiled
one and shows the same wavefields to the callback at the same steps. -/
theorem C33_acoustic_backends_agree (h : C.WF) (hr : 0 < C.ratio) (gk gb : Bool) (cb : Option ℕ)
    (hcb : ∀ cf, cb = some cf → 0 < cf) (nt : ℕ) (hnt : C.ratio ≤ nt) (fp : ℕ → Fin np → R)
    (fv : (k : Fin d) → ℕ → Fin (nv k) → R) (w : Init d R) :
    ∃ r p, C.forward gk gb cb nt fp fv w = .ok r ∧ C.pyForward cb nt fp fv w = .ok p ∧
      p.out = r.out ∧ p.rcdP = r.rcdP ∧ p.rcdV = r.rcdV ∧ p.events = r.events := by
  refine ⟨_, _, forward_eq h gk gb cb nt fp fv w hr fun _ => ?_,
    pyForward_eq h cb hcb nt fp fv w hr, rfl, rfl, rfl, ?_⟩
  · cases cb with
    | none => exact Nat.div_pos hnt hr
    | some cf => exact hcb cf rfl
  · cases cb <;> rfl

example : ∃ r p, (exA ℚ).forward true true (some 3) 14 (fun t i => (t : ℚ) + (i : ℕ))
      (fun k t _ => (t : ℚ) + (k : ℕ)) (exWf ℚ).toInit = .ok r ∧
    (exA ℚ).pyForward (some 3) 14 (fun t i => (t : ℚ) + (i : ℕ))
      (fun k t _ => (t : ℚ) + (k : ℕ)) (exWf ℚ).toInit = .ok p ∧
    p.out = r.out ∧ p.rcdP = r.rcdP ∧ p.rcdV = r.rcdV ∧ p.events = r.events :=
  C33_acoustic_backends_agree (exA_wf ℚ) (by decide) true true (some 3)
    (fun _ e => Option.some.inj e ▸ by decide) 14 (by decide) _ _ _

/-- With fewer internal steps than the step ratio and no callback the compiled backend raises while
the Python one returns. -/
theorem C33_fails_below_one_outer_step (C : Cfg d np mp nv mv R) (gk gb : Bool) (nt : ℕ) (h0 : 0 < nt)
    (hnt : nt < C.ratio) (fp : ℕ → Fin np → R) (fv : (k : Fin d) → ℕ → Fin (nv k) → R) (w : Init d R) :
    (∃ e, C.forward gk gb none nt fp fv w = .error e) ∧ ∃ p, C.pyForward none nt fp fv w = .ok p := by
  have hr : C.ratio ≠ 0 := by omega
  constructor
  · exact ⟨.valueError, by simp [Cfg.forward, hr, h0, Nat.div_eq_of_lt hnt]⟩
  · simp [Cfg.pyForward, hr]

example : (0 : ℕ) < 1 ∧ 1 < (exA ℚ).ratio := by decide

/-! ## C50 -/

/-- **C50** All outputs of the acoustic forward pass and all gradients of the backward pass are the same
with any callback frequency as without callbacks. -/
theorem C50_acoustic_callback_schedule (h : C.WF) (hb : C.Big) (hr : 0 < C.ratio) (gk gb : Bool)
    (cf nt : ℕ) (hcf : 0 < cf) (hnt : nt = 0 ∨ C.ratio ≤ nt) (fp : ℕ → Fin np → R)
    (fv : (k : Fin d) → ℕ → Fin (nv k) → R) (w : Init d R)
    (storeK : ℕ → Fld d R) (storeB : ℕ → Fin d → Fld d R) (grP : ℕ → Fin mp → R)
    (grV : (k : Fin d) → ℕ → Fin (mv k) → R) (g : Init d R) :
    ∃ r r' b b', C.forward gk gb none nt fp fv w = .ok r ∧
      C.forward gk gb (some cf) nt fp fv w = .ok r' ∧
      C.backward gk gb none nt storeK storeB grP grV g = .ok b ∧
      C.backward gk gb (some cf) nt storeK storeB grP grV g = .ok b' ∧
      { r' with events := [] } = r ∧ { b' with events := [] } = b := by
  have hpos : 0 < nt → 0 < (none : Option ℕ).getD (nt / C.ratio) :=
    fun hp => Nat.div_pos (by omega) hr
  exact ⟨_, _, _, _, forward_eq h gk gb none nt fp fv w hr hpos,
    forward_eq h gk gb (some cf) nt fp fv w hr fun _ => hcf,
    backward_eq h hb gk gb none nt storeK storeB grP grV g hr hpos,
    backward_eq h hb gk gb (some cf) nt storeK storeB grP grV g hr fun _ => hcf, rfl, rfl⟩

/-- **C50** The forward callback runs at steps 0, `cf`, `2 cf`, ... below the number of outer steps and
sees the wavefields which a forward pass of only that many steps returns. -/
theorem C50_acoustic_forward_events (h : C.WF) (hr : 0 < C.ratio) (gk gb : Bool) (cf nt : ℕ)
    (hcf : 0 < cf) (fp : ℕ → Fin np → R) (fv : (k : Fin d) → ℕ → Fin (nv k) → R) (w : Init d R) :
    ∃ r, C.forward gk gb (some cf) nt fp fv w = .ok r ∧
      r.events.map Event.step = (List.range ((nt / C.ratio + cf - 1) / cf)).map (· * cf) ∧
      ∀ e ∈ r.events, ∃ r', C.forward gk gb none (e.step * C.ratio) fp fv w = .ok r' ∧
        C.unpadAll e.wf = r'.out := by
  refine ⟨_, forward_eq h gk gb (some cf) nt fp fv w hr fun _ => hcf, ?_, ?_⟩
  · simp only [List.map_map]
    rfl
  · intro e he
    simp only [List.mem_map, List.mem_range] at he
    obtain ⟨i, -, rfl⟩ := he
    have hdiv : i * cf * C.ratio / C.ratio = i * cf := Nat.mul_div_cancel _ hr
    refine ⟨_, forward_eq h gk gb none _ fp fv w hr ?_, ?_⟩
    · dsimp only
      rw [hdiv]
      intro hp
      exact Nat.pos_of_mul_pos_right hp
    · simp only [hdiv]

theorem bRun_shift (grP : ℕ → Fin mp → R) (grV : (k : Fin d) → ℕ → Fin (mv k) → R) (j T : ℕ)
    (l : Wavefields d R) (n : ℕ) (hn : n ≤ T) :
    C.bRun (fun t => grP (j + t)) (fun k t => grV k (j + t)) T l n = C.bRun grP grV (j + T) l n := by
  induction n with
  | zero => rfl
  | succ n ih =>
      have e : j + (T - 1 - n) = j + T - 1 - n := by omega
      rw [Cfg.bRun, Cfg.bRun, ih (by omega)]
      simp only [e]

/-- **C50** With callback frequency `cf` and `N` outer steps, the backward callback runs at steps
`N - cf`, `N - 2 cf`, ... in decreasing order, the last being step 0, once each.  At step `e.step`
it sees the adjoint wavefields and the gradients of the two models which a backward pass over only
the steps from `e.step` on returns. -/
theorem C50_acoustic_backward_events (h : C.WF) (hb : C.Big) (hr : 0 < C.ratio) (gk gb : Bool)
    (cf nt : ℕ) (hcf : 0 < cf) (storeK : ℕ → Fld d R) (storeB : ℕ → Fin d → Fld d R)
    (grP : ℕ → Fin mp → R) (grV : (k : Fin d) → ℕ → Fin (mv k) → R) (g : Init d R) :
    ∃ b, C.backward gk gb (some cf) nt storeK storeB grP grV g = .ok b ∧
      (b.events.map BEvent.step).Pairwise (· > ·) ∧
      (∀ j, j ∈ b.events.map BEvent.step ↔ j < nt / C.ratio ∧ (j = 0 ∨ cf ∣ nt / C.ratio - j)) ∧
      ∀ e ∈ b.events, ∃ b', C.backward gk gb none ((nt / C.ratio - e.step) * C.ratio)
          (fun j => storeK (e.step + j)) (fun j => storeB (e.step + j))
          (fun t => grP (e.step * C.ratio + t)) (fun k t => grV k (e.step * C.ratio + t)) g = .ok b' ∧
        e.gK = b'.gK ∧ e.gB = b'.gB ∧ C.unpadAll e.wf = b'.out := by
  refine ⟨_, backward_eq h hb gk gb (some cf) nt storeK storeB grP grV g hr fun _ => hcf, ?_, ?_, ?_⟩
  · simp only [List.map_map]
    exact Driver.bSteps_pairwise _ _
  · intro j
    simp only [List.map_map]
    exact Driver.mem_bSteps hcf j
  · set N := nt / C.ratio with hN
    intro e he
    simp only [List.mem_map, List.mem_range] at he
    obtain ⟨i, hi, rfl⟩ := he
    set n := min N ((i + 1) * cf) with hn
    have hnN : n ≤ N := Nat.min_le_left _ _
    have hstep : (bEventAt C gk gb storeK storeB grP grV N (C.prepare g) n).step = N - n := rfl
    rw [hstep]
    have e1 : N - (N - n) = n := Nat.sub_sub_self hnN
    rw [e1]
    refine ⟨_, backward_eq h hb gk gb none (n * C.ratio) _ _ _ _ g hr ?_, ?_⟩
    · intro hp
      rw [Option.getD_none, Nat.mul_div_cancel _ hr]
      exact Nat.pos_of_mul_pos_right hp
    · have hT : (N - n) * C.ratio + n * C.ratio = N * C.ratio := by
        rw [← Nat.add_mul, Nat.sub_add_cancel hnN]
      have hbr : ∀ m ≤ n * C.ratio, C.bRun (fun t => grP ((N - n) * C.ratio + t))
          (fun k t => grV k ((N - n) * C.ratio + t)) (n * C.ratio)
          (C.prepare g) m = C.bRun grP grV (N * C.ratio) (C.prepare g) m := by
        intro m hm
        rw [bRun_shift grP grV _ _ _ _ hm, hT]
      simp only [Nat.mul_div_cancel _ hr]
      rw [hbr _ le_rfl]
      refine ⟨?_, ?_, rfl⟩
      · funext c
        refine congrArg _ (Finset.sum_congr rfl fun m hm => ?_)
        rw [Finset.mem_range] at hm
        have e2 : N * C.ratio - 1 - m = (n * C.ratio - 1 - m) + (N - n) * C.ratio := by omega
        simp only [gKAt]
        rw [hbr m hm.le, e2, Nat.add_mul_mod_self_right, Nat.add_mul_div_right _ _ hr,
          Nat.add_comm _ (N - n)]
      · funext k c
        refine congrArg _ (Finset.sum_congr rfl fun m hm => ?_)
        rw [Finset.mem_range] at hm
        have e2 : N * C.ratio - 1 - m = (n * C.ratio - 1 - m) + (N - n) * C.ratio := by omega
        simp only [gBAt]
        rw [hbr m hm.le, e2, Nat.add_mul_mod_self_right, Nat.add_mul_div_right _ _ hr,
          Nat.add_comm _ (N - n)]

example : ∃ b, (exA ℚ).backward true true (some 3) 14 (fun _ _ => 1) (fun _ _ _ => 2)
      (fun t _ => (t : ℚ) + 2) (fun _ _ _ => 3) (exWf ℚ).toInit = .ok b ∧
    ∀ j, j ∈ b.events.map BEvent.step ↔ j < 7 ∧ (j = 0 ∨ 3 ∣ 7 - j) := by
  obtain ⟨b, h1, -, h2, -⟩ := C50_acoustic_backward_events (exA_wf ℚ) (exA_big ℚ) (by decide) true
    true 3 14 (by decide) (fun _ _ => 1) (fun _ _ _ => 2) (fun t _ => (t : ℚ) + 2) (fun _ _ _ => 3)
    (exWf ℚ).toInit
  exact ⟨b, h1, h2⟩

end

/-! ## C31 for tiny models -/

/-- A model of two cells, with accuracy 4 and no PML. -/
def tinyC : Cfg 1 0 0 (fun _ => 0) (fun _ => 0) ℚ where
  acc := .a4
  n := fun _ => 5
  w0 := fun _ => 0
  w1 := fun _ => 0
  dx := fun _ => 1
  dt := 1
  a := fun _ _ => 0
  b := fun _ _ => 0
  ah := fun _ _ => 0
  bh := fun _ _ => 0
  K := fun _ => 1
  B := fun _ _ => 1
  srcP := fun _ => none
  srcV := fun _ _ => none
  rcvP := fun _ => none
  rcvV := fun _ _ => none
  ratio := 1

theorem tinyC_wf : tinyC.WF := by
  constructor <;> simp [tinyC, Acc.pad]

/-- Initial velocity only at the unused last point. -/
def tinyW : Wavefields 1 ℚ :=
  ⟨fun _ => 0, fun _ c => if c = fun _ => 1 then 1 else 0, fun _ _ => 0, fun _ _ => 0⟩

/-- The objective is the final pressure at the last point. -/
def tinyG : Wavefields 1 ℚ :=
  ⟨fun c => if c 0 = 1 then 1 else 0, fun _ _ => 0, fun _ _ => 0, fun _ _ => 0⟩

theorem tiny_prepare : tinyC.prepare tinyW.toInit =
    ⟨fun _ => 0, fun _ _ => 0, fun _ _ => 0, fun _ _ => 0⟩ := by
  have h0 : tinyC.createOrPad (some fun _ => (0 : ℚ)) = fun _ => 0 := by
    funext c; simp [Cfg.createOrPad]
  ext1
  · exact h0
  · funext k c
    obtain rfl : k = 0 := Subsingleton.elim _ _
    simp only [Cfg.prepare, Cfg.zeroEdge, Cfg.createOrPad, tinyW, Wavefields.toInit]
    split_ifs with h1 h2 h3
    · rfl
    · have := congrFun h3 0
      simp only [tinyC, Acc.pad] at h1 this
      omega
    · rfl
    · rfl
  · funext k c
    simp [Cfg.prepare, tinyW, Wavefields.toInit, h0, Cfg.zeroInterior]
  · funext k c
    simp [Cfg.prepare, tinyW, Wavefields.toInit, h0, Cfg.zeroInterior, Cfg.zeroEdge]

theorem tiny_run (fp : ℕ → Fin 0 → ℚ) (fv : (k : Fin 1) → ℕ → Fin 0 → ℚ) (n : ℕ) :
    tinyC.run fp fv ⟨fun _ => 0, fun _ _ => 0, fun _ _ => 0, fun _ _ => 0⟩ n =
      ⟨fun _ => 0, fun _ _ => 0, fun _ _ => 0, fun _ _ => 0⟩ := by
  induction n with
  | zero => rfl
  | succ n ih =>
      rw [Cfg.run, ih]
      ext1 <;> (try funext k) <;> (try funext c) <;>
      simp [Cfg.next, Cfg.halfP, Cfg.halfV, Cfg.divV, Cfg.gradP, Cfg.psi', Cfg.phi', Cfg.DH, Cfg.DI, DS, DSH, inject]

theorem tiny_visits : ((regionVisits (List.finRange 1) tinyC.bwdArgs.boundsV).map Prod.snd).Nodup ∧
    (fun _ => Scalar.Region.lo, ((0 : Fin 1), (fun _ => 3 : Cell 1))) ∈
      regionVisits (List.finRange 1) tinyC.bwdArgs.boundsV := by
  decide +kernel

theorem tiny_step (sK : ℕ → Fld 1 ℚ) (sB : ℕ → Fin 1 → Fld 1 ℚ) :
    (bStepC tinyC.bwdArgs true true sK sB (fun _ _ => 0) (fun _ _ _ => 0) 0
      (tinyC.bInit tinyG.toInit)).v 0 (fun _ => 3) = -9 / 8 := by
  simp only [bStepC]
  have e : ∀ u : Fld 1 ℚ, addTo u (tinyC.bwdArgs.rcvV 0) (fun _ => 0) = u := fun u => rfl
  rw [e, foldUpdate_of_mem _ _ _ tiny_visits.1 _ _ tiny_visits.2]
  have h : (bVelBody tinyC.bwdArgs true (fun _ _ => 0) (tinyC.bInit tinyG.toInit).p
      (tinyC.bInit tinyG.toInit).phi (tinyC.bInit tinyG.toInit).psi (fun _ => Scalar.Region.lo)
      (0, fun _ => 3) ⟨0, 0, 0⟩).v = -9 / 8 := by decide +kernel
  exact h

/-- The condition on the model size in C31 is needed: with a model of two cells, accuracy 4 and no
PML, the backward pass returns a non-zero gradient for a velocity that the forward pass ignores. -/
theorem C31_fails_for_tiny_model : tinyC.WF ∧ ¬tinyC.Big ∧
    ∃ r b, tinyC.forward true true none 1 (fun _ _ => 0) (fun _ _ _ => 0) tinyW.toInit = .ok r ∧
      tinyC.backward true true none 1 r.storeK r.storeB (fun _ _ => 0) (fun _ _ _ => 0)
        tinyG.toInit = .ok b ∧
      r.out.inner tinyC.userCells tinyG = 0 ∧ tinyW.inner tinyC.userCells b.out = -9 / 8 := by
  have hf : ∃ r, tinyC.forward true true none 1 (fun _ _ => 0) (fun _ _ _ => 0) tinyW.toInit = .ok r ∧
      r.out.inner tinyC.userCells tinyG = 0 := by
    refine ⟨_, forward_eq tinyC_wf true true none 1 _ _ _ (by decide) (by decide), ?_⟩
    simp only [tiny_prepare, tiny_run]
    simp [Wavefields.inner, Cfg.unpadAll, Cfg.unpad]
  obtain ⟨r, hf, hz⟩ := hf
  refine ⟨tinyC_wf, by simp [Cfg.Big, tinyC, Acc.pad], r, _, hf, rfl, hz, ?_⟩
  have hm : (fun _ => 1 : Cell 1) ∈ tinyC.userCells := by decide +kernel
  simp only [Wavefields.inner, tinyW, zero_mul, Finset.sum_const_zero, zero_add, add_zero, ite_mul,
    one_mul, Finset.sum_ite_eq', hm, if_true, Fin.sum_univ_one]
  rw [if_pos one_pos, show tinyC.ratio = 1 from rfl, Nat.div_one, Option.getD_none,
    Driver.driveB_eq BMem.swap_swap _ _ one_pos]
  exact tiny_step r.storeK r.storeB

end Dw.Acoustic
