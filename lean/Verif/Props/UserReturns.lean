import Verif.Born.User
import Verif.Acoustic.User
import Verif.Elastic.User
import Verif.Scalar.UserWF

/-!
# What `scalar_born`, `acoustic` and `elastic` return for arguments that pass the setup
-/

open Dw.Setup

namespace Dw.Setup

variable {d : ℕ}

/-- The number of time steps is at least the sampling interval, unless nothing is to be done or there is a
callback. -/
def LongEnough (O : Opts) (P : Plan d) : Prop :=
  O.callback = true ∨ P.nt ≤ 0 ∨ P.ratio * P.interval ≤ P.nt

theorem finite_of_pmlOk' {A : SetupArgs d} {P : Plan d} (h : A.Good P) (hP : Scalar.PmlOk P) (st : Bool) :
    Acoustic.Finite (P.pml st) := by
  intro k i
  rcases hP with hf | hw
  · have hf' : 0 < (P.pml st).freq := by
      show (0 : ℝ) < (P.freq : ℝ)
      exact_mod_cast hf
    refine ⟨?_, ?_⟩
    · obtain ⟨β, e, -⟩ := C21_profiles _ (Scalar.SetupGood.valid h st) hf' 0 k i
      rw [e]; simp
    · obtain ⟨β, e, -⟩ := C21_profiles _ (Scalar.SetupGood.valid h st) hf' (1 / 2) k i
      rw [e]; simp
  · have hw' : ∀ k, (P.pml st).w0 k = 0 ∧ (P.pml st).w1 k = 0 := hw
    rw [Scalar.ab_noPml hw', Scalar.ab_noPml hw']
    simp

theorem interval_nonneg {A : SetupArgs d} {P : Plan d} (h : A.Good P) : 0 ≤ P.interval := by
  have := h.interval
  unfold setInterval at this
  split at this
  · split_ifs at this with h1
    simp only [Except.ok.injEq] at this
    omega
  · cases this

theorem callbackFrequency_pos {x : PyNum} {cf : ℤ} (h : checkCallbackFrequency x = .ok cf) : 0 < cf := by
  unfold checkCallbackFrequency at h
  split at h
  · split_ifs at h with h1
    cases h
    omega
  · cases h

/-- The conditions of the drivers, in terms of the plan. -/
theorem driver_conditions {A : SetupArgs d} {P : Plan d} (h : A.Good P) {O : Opts} {cf : ℤ}
    (hcf : checkCallbackFrequency O.callbackFreq = .ok cf) (tt : Bool) (s : ℕ) :
    let S := shotIn A P tt s
    (S.every = 0 ↔ P.interval = 0) ∧
    (0 < P.interval → ((0 < S.nt.toNat ∧ (O.cb cf).getD (S.nt.toNat / S.every) = 0) ↔ ¬LongEnough O P)) := by
  have hr := Scalar.SetupGood.ratio_pos h
  have hi := interval_nonneg h
  have hc := callbackFrequency_pos hcf
  have hev : (shotIn A P tt s).every = (P.ratio * P.interval).toNat := rfl
  have hnt : (shotIn A P tt s).nt = P.nt := rfl
  refine ⟨?_, fun h0 => ?_⟩
  · rw [hev]
    constructor
    · intro h1
      by_contra h2
      have : 0 < P.ratio * P.interval := mul_pos (by omega) (by omega)
      omega
    · intro h1
      rw [h1]
      simp
  · have hp : 0 < P.ratio * P.interval := mul_pos (by omega) h0
    rw [hev, hnt]
    unfold LongEnough Opts.cb
    by_cases hb : O.callback = true
    · simp only [hb, if_true, Option.getD_some, true_or, not_true, iff_false]
      omega
    · simp only [hb, Bool.false_eq_true, if_false, Option.getD_none, false_or]
      rw [Nat.div_eq_zero_iff]
      omega

end Dw.Setup

namespace Dw.Born

variable {d : ℕ}

theorem BCfg.forward_cases {ns nr nq : ℕ} (B : BCfg d ns nr nq ℝ) (gv gs : Bool) (cb : Option ℕ) (nt : ℕ)
    (f fsc : ℕ → Fin ns → ℝ) (w wsc : Scalar.Init d ℝ) :
    (B.base.ratio = 0 → B.forward gv gs cb nt f fsc w wsc = .error .zeroDivision) ∧
    (B.base.ratio ≠ 0 → (0 < nt ∧ cb.getD (nt / B.base.ratio) = 0) → B.forward gv gs cb nt f fsc w wsc = .error .valueError) ∧
    (B.base.ratio ≠ 0 → ¬(0 < nt ∧ cb.getD (nt / B.base.ratio) = 0) → ∃ r, B.forward gv gs cb nt f fsc w wsc = .ok r) := by
  unfold BCfg.forward
  refine ⟨fun h => if_pos h, fun h h' => ?_, fun h h' => ?_⟩
  · rw [if_neg h]
    exact if_pos h'
  · rw [if_neg h]
    exact ⟨_, if_neg h'⟩

theorem runWith_cases {ns nr nq : ℕ} {w wsc : Scalar.Init d ℝ} {B : BCfg d ns nr nq ℝ} {A : UArgs d}
    {cf : ℤ} {S : ShotIn d} :
    (B.base.ratio = 0 → runWith A w wsc cf S B = .error .zeroDivision) ∧
    (B.base.ratio ≠ 0 → (0 < S.nt.toNat ∧ (A.opts.cb cf).getD (S.nt.toNat / B.base.ratio) = 0) →
      runWith A w wsc cf S B = .error .valueError) ∧
    (B.base.ratio ≠ 0 → ¬(0 < S.nt.toNat ∧ (A.opts.cb cf).getD (S.nt.toNat / B.base.ratio) = 0) →
      ∃ o, runWith A w wsc cf S B = .ok o ∧ (Scalar.Finite S.pml → o.isSome = true)) := by
  unfold runWith
  refine ⟨fun h => ?_, fun h h' => ?_, fun h h' => ?_⟩
  · rw [(B.forward_cases _ _ _ _ _ _ _ _).1 h]
    rfl
  · rw [(B.forward_cases _ _ _ _ _ _ _ _).2.1 h h']
    rfl
  · obtain ⟨r, hr⟩ := (B.forward_cases _ _ _ _ _ _ _ _).2.2 h h'
    rw [hr]
    refine ⟨_, rfl, fun hp => ?_⟩
    rw [if_pos hp]
    rfl

/-- **C89** After the setup, `scalar_born` returns unless the sampling interval is zero or longer than the
propagation; the outputs are finite if the PML frequency is not zero or there is no PML. -/
theorem C89_after_the_setup (A : UArgs d) (P : Plan d) (s : ℕ) (cf : ℤ) (hv : ¬Scalar.NoElements A.v)
    (hP : A.setup.plan = .ok P) (hcf : checkCallbackFrequency A.opts.callbackFreq = .ok cf) :
    (P.interval = 0 → A.born s = .error .zeroDivision) ∧
    (0 < P.interval → ¬LongEnough A.opts P → A.born s = .error .valueError) ∧
    (0 < P.interval → LongEnough A.opts P → ∃ o, A.born s = .ok o ∧ (Scalar.PmlOk P → o.isSome = true)) := by
  classical
  have hG := plan_ok.1 hP
  obtain ⟨c1, c2⟩ := driver_conditions hG hcf A.opts.timeTaper s
  have e : A.born s = A.run (A.wf.init s) (A.wfsc.init s) cf (shotIn A.setup P A.opts.timeTaper s) := by
    unfold UArgs.born call
    rw [raiseIf_ok.2 hv, hP, hcf]
    rfl
  rw [e]
  obtain ⟨f1, f2, f3⟩ := runWith_cases (A := A) (cf := cf) (w := A.wf.init s) (wsc := A.wfsc.init s)
    (S := shotIn A.setup P A.opts.timeTaper s) (B := cfgOf (shotIn A.setup P A.opts.timeTaper s))
  refine ⟨fun h => f1 (c1.2 h), fun h0 h => f2 (fun h1 => by have := c1.1 h1; omega) ((c2 h0).2 h),
    fun h0 h => ?_⟩
  obtain ⟨o, ho, hf⟩ := f3 (fun h1 => by have := c1.1 h1; omega) (fun h1 => (c2 h0).1 h1 h)
  exact ⟨o, ho, fun hp => hf (Scalar.finite_of_pmlOk hG hp A.setup.staggered)⟩

end Dw.Born

namespace Dw.Acoustic

variable {d : ℕ}

theorem Cfg.forward_cases {np mp : ℕ} {nv mv : Fin d → ℕ} (C : Cfg d np mp nv mv ℝ) (gk gb : Bool)
    (cb : Option ℕ) (nt : ℕ) (fp : ℕ → Fin np → ℝ) (fv : (k : Fin d) → ℕ → Fin (nv k) → ℝ) (w : Init d ℝ) :
    (C.ratio = 0 → C.forward gk gb cb nt fp fv w = .error .zeroDivision) ∧
    (C.ratio ≠ 0 → (0 < nt ∧ cb.getD (nt / C.ratio) = 0) → C.forward gk gb cb nt fp fv w = .error .valueError) ∧
    (C.ratio ≠ 0 → ¬(0 < nt ∧ cb.getD (nt / C.ratio) = 0) → ∃ r, C.forward gk gb cb nt fp fv w = .ok r) := by
  unfold Cfg.forward
  refine ⟨fun h => if_pos h, fun h h' => ?_, fun h h' => ?_⟩
  · rw [if_neg h]
    exact if_pos h'
  · rw [if_neg h]
    exact ⟨_, if_neg h'⟩

theorem runWith_cases {np mp : ℕ} {nv mv : Fin d → ℕ} {w : Init d ℝ} {C : Cfg d np mp nv mv ℝ} {A : UArgs d}
    {cf : ℤ} {S : ShotIn d} :
    (C.ratio = 0 → runWith A w cf S C = .error .zeroDivision) ∧
    (C.ratio ≠ 0 → (0 < S.nt.toNat ∧ (A.opts.cb cf).getD (S.nt.toNat / C.ratio) = 0) →
      runWith A w cf S C = .error .valueError) ∧
    (C.ratio ≠ 0 → ¬(0 < S.nt.toNat ∧ (A.opts.cb cf).getD (S.nt.toNat / C.ratio) = 0) →
      ∃ o, runWith A w cf S C = .ok o ∧ (Finite S.pml → o.isSome = true)) := by
  unfold runWith
  refine ⟨fun h => ?_, fun h h' => ?_, fun h h' => ?_⟩
  · rw [(C.forward_cases _ _ _ _ _ _ _).1 h]
    rfl
  · rw [(C.forward_cases _ _ _ _ _ _ _).2.1 h h']
    rfl
  · obtain ⟨r, hr⟩ := (C.forward_cases _ _ _ _ _ _ _).2.2 h h'
    rw [hr]
    refine ⟨_, rfl, fun hp => ?_⟩
    rw [if_pos hp]
    rfl

/-- **C89** The same for `acoustic`. -/
theorem C89_after_the_setup (A : UArgs d) (P : Plan d) (s : ℕ) (cf : ℤ) (hv : ¬A.Pre)
    (hP : A.setup.plan = .ok P) (hcf : checkCallbackFrequency A.opts.callbackFreq = .ok cf) :
    (P.interval = 0 → A.acoustic s = .error .zeroDivision) ∧
    (0 < P.interval → ¬LongEnough A.opts P → A.acoustic s = .error .valueError) ∧
    (0 < P.interval → LongEnough A.opts P →
      ∃ o, A.acoustic s = .ok o ∧ (Scalar.PmlOk P → o.isSome = true)) := by
  classical
  have hG := plan_ok.1 hP
  obtain ⟨c1, c2⟩ := driver_conditions hG hcf A.opts.timeTaper s
  have e : A.acoustic s = A.run (A.wf.init s) cf (shotIn A.setup P A.opts.timeTaper s) := by
    unfold UArgs.acoustic call
    rw [raiseIf_ok.2 hv, hP, hcf]
    rfl
  rw [e]
  obtain ⟨f1, f2, f3⟩ := runWith_cases (A := A) (cf := cf) (w := A.wf.init s)
    (S := shotIn A.setup P A.opts.timeTaper s) (C := cfgOf A.rfmax (shotIn A.setup P A.opts.timeTaper s))
  refine ⟨fun h => f1 (c1.2 h), fun h0 h => f2 (fun h1 => by have := c1.1 h1; omega) ((c2 h0).2 h),
    fun h0 h => ?_⟩
  obtain ⟨o, ho, hf⟩ := f3 (fun h1 => by have := c1.1 h1; omega) (fun h1 => (c2 h0).1 h1 h)
  exact ⟨o, ho, fun hp => hf (finite_of_pmlOk' hG hp A.setup.staggered)⟩

end Dw.Acoustic

namespace Dw.Elastic

variable {d : ℕ}

theorem Cfg.forward_cases {np mp : ℕ} {nv mv : Fin d → ℕ} (C : Cfg d np mp nv mv ℝ) (gl gm gb : Bool)
    (cb : Option ℕ) (nt : ℕ) (fp : ℕ → Fin np → ℝ) (fv : (k : Fin d) → ℕ → Fin (nv k) → ℝ) (w : Init d ℝ) :
    (C.ratio = 0 → C.forward gl gm gb cb nt fp fv w = .error .zeroDivision) ∧
    (C.ratio ≠ 0 → (0 < nt ∧ cb.getD (nt / C.ratio) = 0) → C.forward gl gm gb cb nt fp fv w = .error .valueError) ∧
    (C.ratio ≠ 0 → ¬(0 < nt ∧ cb.getD (nt / C.ratio) = 0) → ∃ r, C.forward gl gm gb cb nt fp fv w = .ok r) := by
  unfold Cfg.forward
  refine ⟨fun h => if_pos h, fun h h' => ?_, fun h h' => ?_⟩
  · rw [if_neg h]
    exact if_pos h'
  · rw [if_neg h]
    exact ⟨_, if_neg h'⟩

theorem runWith_cases {np mp : ℕ} {nv mv : Fin d → ℕ} {w : Init d ℝ} {C : Cfg d np mp nv mv ℝ} {A : UArgs d}
    {cf : ℤ} {S : ShotIn d} :
    (C.ratio = 0 → runWith A w cf S C = .error .zeroDivision) ∧
    (C.ratio ≠ 0 → (0 < S.nt.toNat ∧ (A.opts.cb cf).getD (S.nt.toNat / C.ratio) = 0) →
      runWith A w cf S C = .error .valueError) ∧
    (C.ratio ≠ 0 → ¬(0 < S.nt.toNat ∧ (A.opts.cb cf).getD (S.nt.toNat / C.ratio) = 0) →
      ∃ o, runWith A w cf S C = .ok o ∧ (Acoustic.Finite S.pml → o.isSome = true)) := by
  unfold runWith
  refine ⟨fun h => ?_, fun h h' => ?_, fun h h' => ?_⟩
  · rw [(C.forward_cases _ _ _ _ _ _ _ _).1 h]
    rfl
  · rw [(C.forward_cases _ _ _ _ _ _ _ _).2.1 h h']
    rfl
  · obtain ⟨r, hr⟩ := (C.forward_cases _ _ _ _ _ _ _ _).2.2 h h'
    rw [hr]
    refine ⟨_, rfl, fun hp => ?_⟩
    rw [if_pos hp]
    rfl

/-- **C89** The same for `elastic`. -/
theorem C89_after_the_setup (A : UArgs d) (P : Plan d) (s : ℕ) (cf : ℤ) (hv : ¬A.Pre)
    (hP : A.setup.plan = .ok P) (hcf : checkCallbackFrequency A.opts.callbackFreq = .ok cf) :
    (P.interval = 0 → A.elastic s = .error .zeroDivision) ∧
    (0 < P.interval → ¬LongEnough A.opts P → A.elastic s = .error .valueError) ∧
    (0 < P.interval → LongEnough A.opts P →
      ∃ o, A.elastic s = .ok o ∧ (Scalar.PmlOk P → o.isSome = true)) := by
  classical
  have hG := plan_ok.1 hP
  obtain ⟨c1, c2⟩ := driver_conditions hG hcf A.opts.timeTaper s
  have e : A.elastic s = A.run (A.wf.init s) cf (shotIn A.setup P A.opts.timeTaper s) := by
    unfold UArgs.elastic call
    rw [raiseIf_ok.2 hv, hP, hcf]
    rfl
  rw [e]
  obtain ⟨f1, f2, f3⟩ := runWith_cases (A := A) (cf := cf) (w := A.wf.init s)
    (S := shotIn A.setup P A.opts.timeTaper s) (C := cfgOf A.rfmax (shotIn A.setup P A.opts.timeTaper s))
  refine ⟨fun h => f1 (c1.2 h), fun h0 h => f2 (fun h1 => by have := c1.1 h1; omega) ((c2 h0).2 h),
    fun h0 h => ?_⟩
  obtain ⟨o, ho, hf⟩ := f3 (fun h1 => by have := c1.1 h1; omega) (fun h1 => (c2 h0).1 h1 h)
  exact ⟨o, ho, fun hp => hf (finite_of_pmlOk' hG hp A.setup.staggered)⟩

end Dw.Elastic
