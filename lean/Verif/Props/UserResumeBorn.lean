import Verif.Setup.Part
import Verif.Props.UserLinearBorn

/-!
# Calls of `scalar_born` in two parts
-/

namespace Dw.Born

open Setup Resample
open Dw.Scalar (Cfg St Wavefields PmlOk WholeIgnored upAmps sample)

variable {d : ℕ}

/-- The call with the `n` samples of the amplitudes after the first `m`. -/
def UArgs.part (A : UArgs d) (m n : ℕ) : UArgs d :=
  { A with
    amps := A.amps.map (AmpT.part m n)
    opts := {A.opts with nt := partNt n A.opts.nt} }

/-- Wavefields that are all given. -/
def UWf.all (nb : ℕ) (shape : Fin d → ℤ) (w : ℕ → Wavefields d ℝ) : UWf d :=
  { wfc := some ⟨nb, shape, fun s => (w s).wfc⟩
    wfp := some ⟨nb, shape, fun s => (w s).wfp⟩
    psi := fun k => some ⟨nb, shape, fun s => (w s).psi k⟩
    zeta := fun k => some ⟨nb, shape, fun s => (w s).zeta k⟩ }

/-- The call that takes the final wavefields of another as its initial wavefields. -/
def UArgs.resume (A : UArgs d) (nb : ℕ) (shape : Fin d → ℤ) (r : ℕ → UShot d) : UArgs d :=
  { A with
    wf := .all nb shape fun s => (r s).out
    wfsc := .all nb shape fun s => (r s).outsc }

theorem part_good {A : UArgs d} {P : Plan d} (h : A.setup.Good P) (m n : ℕ) :
    (A.part m n).setup.Good {P with nt := n * P.ratio} := by
  have := h.part m n
  simp only [UArgs.setup, Opts.setup, List.map_cons, List.map_nil] at this
  exact this

theorem UWf.mem_list {w : UWf d} {x : WfT d} : some x ∈ w.list ↔
    w.wfc = some x ∨ w.wfp = some x ∨ (∃ k, w.psi k = some x) ∨ ∃ k, w.zeta k = some x := by
  simp only [UWf.list, List.mem_append, List.mem_cons, List.not_mem_nil, or_false, List.mem_ofFn, or_assoc,
    eq_comm (a := some x)]

theorem UWf.mem_all {nb : ℕ} {shape : Fin d → ℤ} {w : ℕ → Wavefields d ℝ} {x : WfT d}
    (h : some x ∈ (UWf.all nb shape w).list) : x.nb = nb ∧ x.shape = shape := by
  rcases UWf.mem_list.1 h with h1 | h1 | ⟨k, h1⟩ | ⟨k, h1⟩ <;>
  · cases h1
    exact ⟨rfl, rfl⟩

theorem resume_good {A : UArgs d} {P : Plan d} (h : A.setup.Good P) (r : ℕ → UShot d)
    (hor : A.opts.surveyPad = .none → (∀ w, some w ∉ A.wf.list ++ A.wfsc.list) → A.opts.origin = none)
    (hact : A.opts.surveyPad = .none → A.setup.Active id P.nb) :
    (A.resume P.nb (Scalar.wfShape P) r).setup.Good P := by
  refine SetupArgs.Good.rewave (A := A.setup) h
    (wfs := (A.resume P.nb (Scalar.wfShape P) r).wf.list ++ (A.resume P.nb (Scalar.wfShape P) r).wfsc.list)
    ⟨_, List.mem_append_left _ (UWf.mem_list.2 (.inl rfl))⟩ (fun w hw => ?_) hor fun hsp l hl k hk => ?_
  · rcases List.mem_append.1 hw with hw | hw <;> exact UWf.mem_all hw
  · obtain ⟨e1, e2⟩ := h.nd hl
    obtain ⟨s, hs, i, hi, hv⟩ := hact hsp l hl k (by rw [← e1]; exact hk)
    exact List.ne_nil_of_mem (LocT.mem_active.2 ⟨s, by rw [e2]; exact hs, i, hi, rfl, hv⟩)

noncomputable instance : Inhabited (UShot d) :=
  ⟨⟨Wavefields.zero d, Wavefields.zero d, fun _ => ⟨0, fun _ => 0⟩, fun _ => ⟨0, fun _ => 0⟩, []⟩⟩

section
variable {A : UArgs d} {P : Plan d} {s : ℕ} {cf : ℤ} (h : Fwd A P s cf) (h1 : P.ratio = 1)
  {ns nr nq : ℕ} (B : BCfg d ns nr nq ℝ)
include h h1

/-- The states of the first part. -/
theorem Fwd.states_part₁ {n₁ : ℕ} (t : ℕ) :
    (A.part 0 n₁).states B {P with nt := n₁ * P.ratio} s t = A.states B P s t ∧
    (A.part 0 n₁).statesSc B {P with nt := n₁ * P.ratio} s t = A.statesSc B P s t := by
  unfold UArgs.states UArgs.statesSc
  have e' : ∀ a t i, upAmps {P with nt := n₁ * P.ratio} A.opts.timeTaper (a.map (AmpT.part 0 n₁)) s t i =
      upAmps P A.opts.timeTaper a s t i := fun a t i => by
    rw [upAmps_part h.good h1, Nat.zero_add]
  simp only [UArgs.part, e', and_self]

/-- The states of the second part. -/
theorem Fwd.states_part₂ (hB : B.base.WF) {n₁ n₂ nb : ℕ} {shape : Fin d → ℤ} {r : ℕ → UShot d}
    (hr : (r s).out = B.base.outOf (A.states B P s n₁)) (hr' : (r s).outsc = B.base.outOf (A.statesSc B P s n₁)) (t : ℕ) :
    ((A.part n₁ n₂).resume nb shape r).states B {P with nt := n₂ * P.ratio} s t = A.states B P s (n₁ + t) ∧
    ((A.part n₁ n₂).resume nb shape r).statesSc B {P with nt := n₂ * P.ratio} s t = A.statesSc B P s (n₁ + t) := by
  have hg : B.base.start (B.base.outOf (A.states B P s n₁)).toInit = A.states B P s n₁ :=
    B.base.start_outOf (B.base.run_good hB _ 0 (B.base.start_good _) n₁)
  have hg' : B.base.start (B.base.outOf (A.statesSc B P s n₁)).toInit = A.statesSc B P s n₁ :=
    B.base.start_outOf (scRun_good hB _ _ _ (B.base.start_good _) n₁)
  have e : ((A.part n₁ n₂).resume nb shape r).wf.zeroed s = (r s).out := rfl
  have e2 : ((A.part n₁ n₂).resume nb shape r).wfsc.zeroed s = (r s).outsc := rfl
  have e' : ∀ a t i, upAmps {P with nt := n₂ * P.ratio} A.opts.timeTaper (a.map (AmpT.part n₁ n₂)) s t i =
      upAmps P A.opts.timeTaper a s (n₁ + t) i := fun a t i => upAmps_part h.good h1 _ _ _ _ _ _ _
  constructor
  · unfold UArgs.states
    rw [B.base.run_add, Nat.zero_add, B.base.run_shift _ _ n₁ t, e, hr, hg]
    simp only [UArgs.part, UArgs.resume, e']
    rfl
  · unfold UArgs.statesSc
    rw [scRun_add, e, e2, hr, hr', hg, hg']
    simp only [UArgs.part, UArgs.resume, e']
    rfl

end

/-- **C104** A call of `scalar_born` without internal substeps can be made in two parts: a call with the first `n₁`
samples of the source amplitudes and, with the background and scattered wavefields that it returns and otherwise the same
arguments, one with the other samples.  Both are accepted, the second returns the final wavefields of the single call,
and the traces are those of the single call cut after `n₁` samples. -/
theorem C104_born_stop_and_resume (A : UArgs d) (P : Plan d) (cf : ℤ) (n₁ n₂ : ℕ) (h : A.setup.plan = .ok P)
    (hP : PmlOk P)
    (hloc : ∀ s < P.nb, ∀ l, A.src = some l ∨ A.rcv = some l ∨ A.bgRcv = some l → WholeIgnored d l s)
    (hcf : checkCallbackFrequency A.opts.callbackFreq = .ok cf) (hi : 0 < P.interval)
    (hratio : P.ratio = 1) (hnt : P.nt = (n₁ + n₂ : ℕ)) (h₁ : P.interval ∣ n₁) (h₂ : P.interval ∣ n₂)
    (hor : A.opts.surveyPad = .none → (∀ w, some w ∉ A.wf.list ++ A.wfsc.list) → A.opts.origin = none)
    (hact : A.opts.surveyPad = .none → A.setup.Active id P.nb) :
    ∃ r r₁ r₂ : ℕ → UShot d, (∀ s < P.nb, A.born s = .ok (some (r s))) ∧
      (∀ s < P.nb, (A.part 0 n₁).born s = .ok (some (r₁ s))) ∧
      (∀ s < P.nb, ((A.part n₁ n₂).resume P.nb (Scalar.wfShape P) r₁).born s = .ok (some (r₂ s))) ∧
      ∀ s < P.nb, (r₂ s).out = (r s).out ∧ (r₂ s).outsc = (r s).outsc ∧
        (∀ i < locCount A.bgRcv, Joined n₁ n₂ ((r s).bgTraces i) ((r₁ s).bgTraces i) ((r₂ s).bgTraces i)) ∧
        ∀ i < locCount A.rcv, Joined n₁ n₂ ((r s).traces i) ((r₁ s).traces i) ((r₂ s).traces i) := by
  rw [plan_ok] at h
  have hc : ∀ n : ℕ, P.interval ∣ n → A.opts.callback = true ∨ P.ratio * P.interval ≤ n * P.ratio ∨
      (n : ℤ) * P.ratio ≤ 0 := by
    intro n hd
    rw [hratio, one_mul, mul_one]
    rcases Nat.eq_zero_or_pos n with h0 | h0
    · right; right; omega
    · exact .inr (.inl (Int.le_of_dvd (by omega) hd))
  have hF : ∀ s < P.nb, Fwd A P s cf := fun s hs =>
    ⟨h, hs, hP, hloc s hs, hcf, hi, by
      have := hc (n₁ + n₂) (by rw [Nat.cast_add]; exact dvd_add h₁ h₂)
      rwa [← hnt, hratio, mul_one, ← hratio] at this⟩
  have hF₁ : ∀ s < P.nb, Fwd (A.part 0 n₁) {P with nt := n₁ * P.ratio} s cf := fun s hs =>
    ⟨part_good h 0 n₁, hs, hP, hloc s hs, hcf, hi, hc n₁ h₁⟩
  have hF₂ : ∀ r₁, ∀ s < P.nb, Fwd ((A.part n₁ n₂).resume P.nb (Scalar.wfShape P) r₁) {P with nt := n₂ * P.ratio} s cf :=
    fun r₁ s hs => ⟨resume_good (part_good h n₁ n₂) r₁ hor hact, hs, hP, hloc s hs, hcf, hi, hc n₂ h₂⟩
  obtain ⟨r, hr⟩ := choose_lt fun s hs => (hF s hs).result
  obtain ⟨r₁, hr₁⟩ := choose_lt fun s hs => (hF₁ s hs).result
  obtain ⟨r₂, hr₂⟩ := choose_lt fun s hs => (hF₂ r₁ s hs).result
  refine ⟨r, r₁, r₂, fun s hs => (hr s hs).1, fun s hs => (hr₁ s hs).1, fun s hs => (hr₂ s hs).1, fun s hs => ?_⟩
  obtain ⟨-, o, q, p, v⟩ := hr s hs
  obtain ⟨-, o₁, q₁, p₁, v₁⟩ := hr₁ s hs
  obtain ⟨-, o₂, q₂, p₂, v₂⟩ := hr₂ s hs
  have hev : (cfgOf (shotIn A.setup P A.opts.timeTaper s)).base.ratio = P.interval.toNat := by
    show (P.ratio * P.interval).toNat = _
    rw [hratio, one_mul]
  have hcut : ∀ n : ℕ, P.interval ∣ n → (n : ℤ).toNat / P.interval.toNat * P.interval.toNat = n := fun n hn => by
    refine Nat.div_mul_cancel ?_
    have : ((P.interval.toNat : ℕ) : ℤ) = P.interval := Int.toNat_of_nonneg hi.le
    rw [← this] at hn
    exact_mod_cast hn
  have hT : P.nt.toNat / (cfgOf (shotIn A.setup P A.opts.timeTaper s)).base.ratio *
      (cfgOf (shotIn A.setup P A.opts.timeTaper s)).base.ratio = n₁ + n₂ := by
    rw [hev, hnt]
    exact hcut _ (by rw [Nat.cast_add]; exact dvd_add h₁ h₂)
  have hT' : ∀ n : ℕ, P.interval ∣ n → ((n : ℤ) * P.ratio).toNat /
      (cfgOf (shotIn A.setup P A.opts.timeTaper s)).base.ratio *
      (cfgOf (shotIn A.setup P A.opts.timeTaper s)).base.ratio = n := fun n hn => by
    rw [hev, hratio, mul_one]
    exact hcut _ hn
  have hs₁ : ∀ t, (A.part 0 n₁).states (cfgOf (shotIn A.setup P A.opts.timeTaper s))
      {P with nt := n₁ * P.ratio} s t = A.states (cfgOf (shotIn A.setup P A.opts.timeTaper s)) P s t := fun t =>
    ((hF s hs).states_part₁ hratio _ t).1
  have hs₁' : ∀ t, (A.part 0 n₁).statesSc (cfgOf (shotIn A.setup P A.opts.timeTaper s))
      {P with nt := n₁ * P.ratio} s t = A.statesSc (cfgOf (shotIn A.setup P A.opts.timeTaper s)) P s t := fun t =>
    ((hF s hs).states_part₁ hratio _ t).2
  have hs₂ : ∀ t, ((A.part n₁ n₂).resume P.nb (Scalar.wfShape P) r₁).states
      (cfgOf (shotIn A.setup P A.opts.timeTaper s)) {P with nt := n₂ * P.ratio} s t =
      A.states (cfgOf (shotIn A.setup P A.opts.timeTaper s)) P s (n₁ + t) ∧
      ((A.part n₁ n₂).resume P.nb (Scalar.wfShape P) r₁).statesSc
      (cfgOf (shotIn A.setup P A.opts.timeTaper s)) {P with nt := n₂ * P.ratio} s t =
      A.statesSc (cfgOf (shotIn A.setup P A.opts.timeTaper s)) P s (n₁ + t) := by
    refine (hF s hs).states_part₂ hratio _ (hF s hs).wf.base (o₁.trans ?_) (q₁.trans ?_)
    · exact congrArg _ ((hs₁ _).trans (congrArg _ (hT' n₁ h₁)))
    · exact congrArg _ ((hs₁' _).trans (congrArg _ (hT' n₁ h₁)))
  refine ⟨?_, ?_, fun i hil => ?_, fun i hil => ?_⟩
  · refine o₂.trans (Eq.trans ?_ o.symm)
    refine congrArg (cfgOf (shotIn A.setup P A.opts.timeTaper s)).base.outOf ((hs₂ _).1.trans (congrArg _ ?_))
    rw [hT]
    exact congrArg _ (hT' n₂ h₂)
  · refine q₂.trans (Eq.trans ?_ q.symm)
    refine congrArg (cfgOf (shotIn A.setup P A.opts.timeTaper s)).base.outOf ((hs₂ _).2.trans (congrArg _ ?_))
    rw [hT]
    exact congrArg _ (hT' n₂ h₂)
  · rw [p, p₁, p₂]
    exact traces_joined h (hF₁ s hs).good (hF₂ r₁ s hs).good hT (hT' n₁ h₁) (hT' n₂ h₂) hnt rfl rfl hratio hratio hratio
      A.opts.timeTaper s _ _ _ (fun t _ => congrArg (fun w : St d ℝ => sample _ w.u) (hs₁ t).symm)
      (fun t _ => congrArg (fun w : St d ℝ => sample _ w.u) (hs₂ t).1.symm)
      (hil.trans_eq (rcv_placed h hs A.opts.timeTaper (j := 0) rfl fun l hl => hloc s hs l (.inr (.inr hl))).length.symm)
  · rw [v, v₁, v₂]
    exact traces_joined h (hF₁ s hs).good (hF₂ r₁ s hs).good hT (hT' n₁ h₁) (hT' n₂ h₂) hnt rfl rfl hratio hratio hratio
      A.opts.timeTaper s _ _ _ (fun t _ => congrArg (fun w : St d ℝ => sample _ w.u) (hs₁' t).symm)
      (fun t _ => congrArg (fun w : St d ℝ => sample _ w.u) (hs₂ t).2.symm)
      (hil.trans_eq (rcv_placed h hs A.opts.timeTaper (j := 1) rfl fun l hl => hloc s hs l (.inr (.inl hl))).length.symm)

/-- Two and three of the five samples. -/
example : ∃ r r₁ r₂ : ℕ → UShot 2, (∀ s < 2, (exG true).born s = .ok (some (r s))) ∧
    (∀ s < 2, ((exG true).part 0 2).born s = .ok (some (r₁ s))) ∧
    (∀ s < 2, (((exG true).part 2 3).resume 2 (Scalar.wfShape exGP) r₁).born s = .ok (some (r₂ s))) ∧
    (r₂ 1).outsc = (r 1).outsc ∧ Joined 2 3 ((r 1).traces 0) ((r₁ 1).traces 0) ((r₂ 1).traces 0) := by
  obtain ⟨r, r₁, r₂, h1, h2, h3, h4⟩ := C104_born_stop_and_resume (exG true) exGP 1 2 3 (plan_ok.2 (exG_good true))
    (.inl (by norm_num [exGP, exPl1, exPl])) (fun s hs => exU_locs hs) rfl
    (by norm_num [exGP, exPl1, exPl]) rfl (by norm_num [exGP, exPl1, exPl]) (by norm_num [exGP, exPl1, exPl])
    (by norm_num [exGP, exPl1, exPl]) (fun _ _ => rfl) (fun _ l hl => by
      have : l = exLoc := by simpa [UArgs.setup, Opts.setup, exG, exU] using hl
      obtain rfl := this
      show ∀ k < 2, ∃ s < 2, ∃ i < exLoc.n, exLoc.val s i k ≠ ((ignoreLocation : ℤ) : ℚ)
      decide +kernel)
  obtain ⟨-, h5, -, h7⟩ := h4 1 (by norm_num [exGP, exPl1, exPl])
  exact ⟨r, r₁, r₂, h1, h2, h3, h5, h7 0 (by decide)⟩

end Dw.Born
