import Verif.Setup.Part
import Verif.Props.UserLinearAcoustic

/-!
# Calls of `acoustic` in two parts
-/

namespace Dw.Acoustic

open Setup Resample
open Dw.Scalar (PmlOk WholeIgnored upAmps sample)

variable {d : ℕ}

/-- The call with the `n` samples of all amplitudes after the first `m`. -/
def UArgs.part (A : UArgs d) (m n : ℕ) : UArgs d :=
  { A with
    ampP := A.ampP.map (AmpT.part m n)
    ampV := fun k => (A.ampV k).map (AmpT.part m n)
    opts := {A.opts with nt := partNt n A.opts.nt} }

/-- The call that takes the final wavefields of another as its initial wavefields. -/
def UArgs.resume (A : UArgs d) (nb : ℕ) (shape : Fin d → ℤ) (r : ℕ → UShot d) : UArgs d :=
  { A with
    wf :=
      { p := some ⟨nb, shape, fun s => (r s).out.p⟩
        v := fun k => some ⟨nb, shape, fun s => (r s).out.v k⟩
        phi := fun k => some ⟨nb, shape, fun s => (r s).out.phi k⟩
        psi := fun k => some ⟨nb, shape, fun s => (r s).out.psi k⟩ } }

theorem part_good {A : UArgs d} {P : Plan d} (h : A.setup.Good P) (m n : ℕ) :
    (A.part m n).setup.Good {P with nt := n * P.ratio} := by
  have := h.part m n
  simp only [UArgs.setup, Opts.setup, List.map_cons, List.map_ofFn] at this
  exact this

theorem UWf.mem_list {w : UWf d} {x : WfT d} : some x ∈ w.list ↔
    w.p = some x ∨ (∃ k, w.v k = some x) ∨ (∃ k, w.phi k = some x) ∨ ∃ k, w.psi k = some x := by
  simp only [UWf.list, List.mem_append, List.mem_cons, List.not_mem_nil, or_false, List.mem_ofFn, or_assoc,
    eq_comm (a := some x)]

theorem resume_good {A : UArgs d} {P : Plan d} (h : A.setup.Good P) (r : ℕ → UShot d)
    (hor : A.opts.surveyPad = .none → (∀ w, some w ∉ A.wf.list) → A.opts.origin = none)
    (hact : A.opts.surveyPad = .none → A.setup.Active id P.nb) :
    (A.resume P.nb (Scalar.wfShape P) r).setup.Good P := by
  refine SetupArgs.Good.rewave (A := A.setup) h (wfs := (A.resume P.nb (Scalar.wfShape P) r).wf.list)
    ⟨_, UWf.mem_list.2 (.inl rfl)⟩ (fun w hw => ?_) hor fun hsp l hl k hk => ?_
  · rcases UWf.mem_list.1 hw with h1 | ⟨k, h1⟩ | ⟨k, h1⟩ | ⟨k, h1⟩ <;>
    · cases h1
      exact ⟨rfl, rfl⟩
  · obtain ⟨e1, e2⟩ := h.nd hl
    obtain ⟨s, hs, i, hi, hv⟩ := hact hsp l hl k (by rw [← e1]; exact hk)
    exact List.ne_nil_of_mem (LocT.mem_active.2 ⟨s, by rw [e2]; exact hs, i, hi, rfl, hv⟩)

noncomputable instance : Inhabited (UShot d) :=
  ⟨⟨⟨fun _ => 0, fun _ _ => 0, fun _ _ => 0, fun _ _ => 0⟩, fun _ => ⟨0, fun _ => 0⟩, fun _ _ => ⟨0, fun _ => 0⟩, []⟩⟩

section
variable {A : UArgs d} {P : Plan d} {s : ℕ} {cf : ℤ} (h : Fwd A P s cf) (h1 : P.ratio = 1)
  {np mp : ℕ} {nv mv : Fin d → ℕ} (C : Cfg d np mp nv mv ℝ)
include h h1

/-- The states of the first part. -/
theorem Fwd.states_part₁ {n₁ : ℕ} (t : ℕ) :
    (A.part 0 n₁).states C {P with nt := n₁ * P.ratio} s t = A.states C P s t := by
  unfold UArgs.states
  have e : ∀ a : Option AmpT, (fun t i => upAmps {P with nt := n₁ * P.ratio} A.opts.timeTaper (a.map (AmpT.part 0 n₁)) s t i) =
      fun t i => upAmps P A.opts.timeTaper a s t i := fun a => by
    funext t i
    rw [upAmps_part h.good h1, Nat.zero_add]
  have e' : ∀ a t i, upAmps {P with nt := n₁ * P.ratio} A.opts.timeTaper (a.map (AmpT.part 0 n₁)) s t i =
      upAmps P A.opts.timeTaper a s t i := fun a t i => congrFun (congrFun (e a) t) i
  simp only [UArgs.part, e']

/-- The states of the second part. -/
theorem Fwd.states_part₂ (hC : C.WF) {n₁ n₂ nb : ℕ} {shape : Fin d → ℤ} {r : ℕ → UShot d}
    (hr : (r s).out = C.unpadAll (A.states C P s n₁)) (t : ℕ) :
    ((A.part n₁ n₂).resume nb shape r).states C {P with nt := n₂ * P.ratio} s t = A.states C P s (n₁ + t) := by
  unfold UArgs.states
  rw [run_add]
  have e' : ∀ a t i, upAmps {P with nt := n₂ * P.ratio} A.opts.timeTaper (a.map (AmpT.part n₁ n₂)) s t i =
      upAmps P A.opts.timeTaper a s (n₁ + t) i := fun a t i => upAmps_part h.good h1 _ _ _ _ _ _ _
  have e : ((A.part n₁ n₂).resume nb shape r).wf.zeroed s = (r s).out := rfl
  have hg : C.prepare (C.unpadAll (A.states C P s n₁)).toInit = A.states C P s n₁ :=
    prepare_unpadAll (run_good hC _ _ (prepare_good _) n₁)
  rw [e, hr, hg]
  simp only [UArgs.part, UArgs.resume, e']
  rfl

end

/-- **C104** A call of `acoustic` without internal substeps can be made in two parts: a call with the first `n₁` samples
of all source amplitudes and, with the wavefields that it returns and otherwise the same arguments, one with the other
samples.  Both are accepted, the second returns the final wavefields of the single call, and the traces are those of
the single call cut after `n₁` samples. -/
theorem C104_acoustic_stop_and_resume (A : UArgs d) (P : Plan d) (cf : ℤ) (n₁ n₂ : ℕ) (h : A.setup.plan = .ok P)
    (hpre : ¬A.Pre) (hP : PmlOk P)
    (hloc : ∀ s < P.nb, ∀ l, some l ∈ A.setup.srcs ++ A.setup.rcvs → WholeIgnored d l s)
    (hlast : ∀ s < P.nb, ∀ k, 0 < P.w1 k ∨ (P.ext k).2 = A.v.shape k ∨
      P.BeforeLast k s (A.srcV k) ∧ P.BeforeLast k s (A.rcvV k))
    (hcf : checkCallbackFrequency A.opts.callbackFreq = .ok cf) (hi : 0 < P.interval)
    (hratio : P.ratio = 1) (hnt : P.nt = (n₁ + n₂ : ℕ)) (h₁ : P.interval ∣ n₁) (h₂ : P.interval ∣ n₂)
    (hor : A.opts.surveyPad = .none → (∀ w, some w ∉ A.wf.list) → A.opts.origin = none)
    (hact : A.opts.surveyPad = .none → A.setup.Active id P.nb) :
    ∃ r r₁ r₂ : ℕ → UShot d, (∀ s < P.nb, A.acoustic s = .ok (some (r s))) ∧
      (∀ s < P.nb, (A.part 0 n₁).acoustic s = .ok (some (r₁ s))) ∧
      (∀ s < P.nb, ((A.part n₁ n₂).resume P.nb (Scalar.wfShape P) r₁).acoustic s = .ok (some (r₂ s))) ∧
      ∀ s < P.nb, (r₂ s).out = (r s).out ∧
        (∀ i < locCount A.rcvP, Joined n₁ n₂ ((r s).tracesP i) ((r₁ s).tracesP i) ((r₂ s).tracesP i)) ∧
        ∀ k, ∀ i < locCount (A.rcvV k), Joined n₁ n₂ ((r s).tracesV k i) ((r₁ s).tracesV k i) ((r₂ s).tracesV k i) := by
  rw [plan_ok] at h
  have hc : ∀ n : ℕ, P.interval ∣ n → A.opts.callback = true ∨ P.ratio * P.interval ≤ n * P.ratio ∨
      (n : ℤ) * P.ratio ≤ 0 := by
    intro n hd
    rw [hratio, one_mul, mul_one]
    rcases Nat.eq_zero_or_pos n with h0 | h0
    · right; right; omega
    · exact .inr (.inl (Int.le_of_dvd (by omega) hd))
  have hF : ∀ s < P.nb, Fwd A P s cf := fun s hs =>
    ⟨h, hpre, hs, hP, hloc s hs, hlast s hs, hcf, hi, by
      have := hc (n₁ + n₂) (by rw [Nat.cast_add]; exact dvd_add h₁ h₂)
      rwa [← hnt, hratio, mul_one, ← hratio] at this⟩
  have hF₁ : ∀ s < P.nb, Fwd (A.part 0 n₁) {P with nt := n₁ * P.ratio} s cf := fun s hs =>
    ⟨part_good h 0 n₁, hpre, hs, hP, hloc s hs, hlast s hs, hcf, hi, hc n₁ h₁⟩
  have hF₂ : ∀ r₁, ∀ s < P.nb, Fwd ((A.part n₁ n₂).resume P.nb (Scalar.wfShape P) r₁) {P with nt := n₂ * P.ratio} s cf :=
    fun r₁ s hs => ⟨resume_good (part_good h n₁ n₂) r₁ hor hact, hpre, hs, hP, hloc s hs, hlast s hs, hcf, hi, hc n₂ h₂⟩
  obtain ⟨r, hr⟩ := choose_lt fun s hs => (hF s hs).result
  obtain ⟨r₁, hr₁⟩ := choose_lt fun s hs => (hF₁ s hs).result
  obtain ⟨r₂, hr₂⟩ := choose_lt fun s hs => (hF₂ r₁ s hs).result
  refine ⟨r, r₁, r₂, fun s hs => (hr s hs).1, fun s hs => (hr₁ s hs).1, fun s hs => (hr₂ s hs).1, fun s hs => ?_⟩
  obtain ⟨-, o, p, v⟩ := hr s hs
  obtain ⟨-, o₁, p₁, v₁⟩ := hr₁ s hs
  obtain ⟨-, o₂, p₂, v₂⟩ := hr₂ s hs
  have hev : (cfgOf A.rfmax (shotIn A.setup P A.opts.timeTaper s)).ratio = P.interval.toNat := by
    show (P.ratio * P.interval).toNat = _
    rw [hratio, one_mul]
  have hcut : ∀ n : ℕ, P.interval ∣ n → (n : ℤ).toNat / P.interval.toNat * P.interval.toNat = n := fun n hn => by
    refine Nat.div_mul_cancel ?_
    have : ((P.interval.toNat : ℕ) : ℤ) = P.interval := Int.toNat_of_nonneg hi.le
    rw [← this] at hn
    exact_mod_cast hn
  have hT : P.nt.toNat / (cfgOf A.rfmax (shotIn A.setup P A.opts.timeTaper s)).ratio *
      (cfgOf A.rfmax (shotIn A.setup P A.opts.timeTaper s)).ratio = n₁ + n₂ := by
    rw [hev, hnt]
    exact hcut _ (by rw [Nat.cast_add]; exact dvd_add h₁ h₂)
  have hT' : ∀ n : ℕ, P.interval ∣ n → ((n : ℤ) * P.ratio).toNat /
      (cfgOf A.rfmax (shotIn A.setup P A.opts.timeTaper s)).ratio *
      (cfgOf A.rfmax (shotIn A.setup P A.opts.timeTaper s)).ratio = n := fun n hn => by
    rw [hev, hratio, mul_one]
    exact hcut _ hn
  have hs₁ : ∀ t, (A.part 0 n₁).states (cfgOf A.rfmax (shotIn A.setup P A.opts.timeTaper s))
      {P with nt := n₁ * P.ratio} s t = A.states (cfgOf A.rfmax (shotIn A.setup P A.opts.timeTaper s)) P s t :=
    (hF s hs).states_part₁ hratio _
  have hs₂ : ∀ t, ((A.part n₁ n₂).resume P.nb (Scalar.wfShape P) r₁).states
      (cfgOf A.rfmax (shotIn A.setup P A.opts.timeTaper s)) {P with nt := n₂ * P.ratio} s t =
      A.states (cfgOf A.rfmax (shotIn A.setup P A.opts.timeTaper s)) P s (n₁ + t) := by
    refine (hF s hs).states_part₂ hratio _ (hF s hs).wf ?_
    refine o₁.trans ?_
    exact congrArg _ (((hF s hs).states_part₁ hratio _ _).trans (congrArg _ (hT' n₁ h₁)))
  refine ⟨?_, fun i hil => ?_, fun k i hil => ?_⟩
  · refine o₂.trans (Eq.trans ?_ o.symm)
    refine congrArg (cfgOf A.rfmax (shotIn A.setup P A.opts.timeTaper s)).unpadAll ((hs₂ _).trans (congrArg _ ?_))
    rw [hT]
    exact congrArg _ (hT' n₂ h₂)
  · rw [p, p₁, p₂]
    exact traces_joined h (hF₁ s hs).good (hF₂ r₁ s hs).good hT (hT' n₁ h₁) (hT' n₂ h₂) hnt rfl rfl hratio hratio hratio
      A.opts.timeTaper s _ _ _ (fun t _ => congrArg (fun w : Wavefields d ℝ => sample _ w.p) (hs₁ t).symm)
      (fun t _ => congrArg (fun w : Wavefields d ℝ => sample _ w.p) (hs₂ t).symm) (hil.trans_eq (hF s hs).rcvP.length.symm)
  · rw [v, v₁, v₂]
    exact traces_joined h (hF₁ s hs).good (hF₂ r₁ s hs).good hT (hT' n₁ h₁) (hT' n₂ h₂) hnt rfl rfl hratio hratio hratio
      A.opts.timeTaper s _ _ _ (fun t _ => congrArg (fun w : Wavefields d ℝ => sample _ (w.v k)) (hs₁ t).symm)
      (fun t _ => congrArg (fun w : Wavefields d ℝ => sample _ (w.v k)) (hs₂ t).symm)
      (hil.trans_eq ((hF s hs).rcvV k).length.symm)

/-- Two and three of the five samples. -/
example : ∃ r r₁ r₂ : ℕ → UShot 2, (∀ s < 2, exG.acoustic s = .ok (some (r s))) ∧
    (∀ s < 2, (exG.part 0 2).acoustic s = .ok (some (r₁ s))) ∧
    (∀ s < 2, ((exG.part 2 3).resume 2 (Scalar.wfShape exGP) r₁).acoustic s = .ok (some (r₂ s))) ∧
    (r₂ 1).out = (r 1).out ∧ Joined 2 3 ((r 1).tracesP 0) ((r₁ 1).tracesP 0) ((r₂ 1).tracesP 0) ∧
    Joined 2 3 ((r 1).tracesV 0 1) ((r₁ 1).tracesV 0 1) ((r₂ 1).tracesV 0 1) := by
  obtain ⟨r, r₁, r₂, h1, h2, h3, h4⟩ := C104_acoustic_stop_and_resume exG exGP 1 2 3 (plan_ok.2 exG_good) (exU_pre .none)
    (.inl (by norm_num [exGP, exPl1, exPl])) (fun s hs l hl => Born.exLoc_whole hs (exU_locs .none l hl))
    (fun s _ k => .inl (by fin_cases k <;> norm_num [exGP, exPl1, exPl, Plan.w1])) rfl
    (by norm_num [exGP, exPl1, exPl]) rfl (by norm_num [exGP, exPl1, exPl]) (by norm_num [exGP, exPl1, exPl])
    (by norm_num [exGP, exPl1, exPl]) (fun _ _ => rfl) (fun _ l hl => by
      obtain rfl := exU_locs .none l hl
      show ∀ k < 2, ∃ s < 2, ∃ i < exLoc.n, exLoc.val s i k ≠ ((ignoreLocation : ℤ) : ℚ)
      decide +kernel)
  obtain ⟨h5, h6, h7⟩ := h4 1 (by norm_num [exGP, exPl1, exPl])
  exact ⟨r, r₁, r₂, h1, h2, h3, h5, h6 0 (by decide), h7 0 1 (by decide)⟩

end Dw.Acoustic
