import Verif.Props.UserGradScalar
import Verif.Props.UserGradBorn
import Verif.Props.UserGradAcoustic
import Verif.Props.UserGradElastic
import Verif.Acoustic.Linear
import Verif.Elastic.Linear
import Verif.Props.UserGradNear

/-!
# C141: gradients are linear in the gradients given to the backward pass
-/

namespace Dw.Setup

open Scalar Resample

variable {d : ℕ}

/-- 1 in sample `t` of the amplitudes `i` of shot `s`, and 0 elsewhere. -/
noncomputable def ampBump (s i t : ℕ) : ℕ → ℕ → ℕ → ℝ := fun s' i' t' => if s' = s ∧ i' = i ∧ t' = t then 1 else 0

theorem ampPair_bump (a : Option AmpT) (s : ℕ) {i t : ℕ} (x : ℕ → ℕ → ℝ) {n nt : ℕ} (ha : a.map AmpT.n = some n)
    (hat : a.map AmpT.nt = some nt) (hi : i < n) (ht : t < nt) : ampPair a (ampBump s i t s) x = x i t := by
  cases a with
  | none => cases ha
  | some a =>
      obtain rfl := Option.some.inj ha
      obtain rfl := Option.some.inj hat
      unfold ampPair
      dsimp only
      rw [Finset.sum_eq_single i (fun i' _ h => Finset.sum_eq_zero fun t' _ => by simp [ampBump, h])
        (fun h => absurd (Finset.mem_range.2 hi) h), Finset.sum_eq_single t (fun t' _ h => by simp [ampBump, h])
        (fun h => absurd (Finset.mem_range.2 ht) h)]
      simp [ampBump]

theorem tracePair_comb (n : ℕ) (a : ℝ) (gr gr' : ℕ → ℕ → ℝ) (x : ℕ → Sig ℝ) :
    tracePair n (fun i t => gr i t + a * gr' i t) x = tracePair n gr x + a * tracePair n gr' x := by
  unfold tracePair
  simp only [Finset.mul_sum, ← Finset.sum_add_distrib]
  exact Finset.sum_congr rfl fun i _ => Finset.sum_congr rfl fun t _ => by ring

end Dw.Setup

namespace Dw.Scalar

open Setup Resample

variable {d : ℕ}

theorem Wavefields.inner_comb (S : Finset (Cell d)) (a : ℝ) (x w w' : Wavefields d ℝ) :
    x.inner S (w.comb 1 a w') = x.inner S w + a * x.inner S w' := by
  unfold Wavefields.inner Wavefields.comb
  simp only [mul_add, one_mul, Finset.sum_add_distrib, Finset.mul_sum, mul_left_comm _ a]
  ring

theorem UShot.pair_comb (r : UShot d) (n : ℕ) (S : Finset (Cell d)) (a : ℝ) (gr gr' : ℕ → ℕ → ℝ) (g g' : Wavefields d ℝ) :
    r.pair n S (fun i t => gr i t + a * gr' i t) (g.comb 1 a g') = r.pair n S gr g + a * r.pair n S gr' g' := by
  have h := tracePair_comb n a gr gr' r.traces
  unfold tracePair at h
  unfold UShot.pair
  rw [h, Wavefields.inner_comb]
  ring

end Dw.Scalar

namespace Dw.Scalar

open Setup Resample

variable {d : ℕ}

/-- **C141** Gradients of source amplitudes and initial wavefields are linear in the gradients of the outputs, for any
time step. -/
theorem C141_scalar_sources (A : UArgs d) (P : Plan d) (s : ℕ) (cf : ℤ) (h : Fwd A P s cf) (bcb : Bool) (a : ℝ)
    (gr gr' : ℕ → ℕ → ℝ) (g g' : Wavefields d ℝ) (hnt : P.ratio * P.interval ≤ P.nt ∨ P.nt ≤ 0) :
    ∃ b b' x : UGrad d, A.backward s bcb gr g = .ok (some b) ∧ A.backward s bcb gr' g' = .ok (some b') ∧
      A.backward s bcb (fun i t => gr i t + a * gr' i t) (g.comb 1 a g') = .ok (some x) ∧
      (∀ q, A.amps = some q → ∀ i < q.n, ∀ t < q.nt, x.amps i t = b.amps i t + a * b'.amps i t) ∧
      ∀ w, (A.givenOf w).inner (outCells P) x.wf =
        (A.givenOf w).inner (outCells P) b.wf + a * (A.givenOf w).inner (outCells P) b'.wf := by
  have key : ∀ D : UDir d, D.v = (fun _ _ => 0) → ∃ b b' x : UGrad d, A.backward s bcb gr g = .ok (some b) ∧
      A.backward s bcb gr' g' = .ok (some b') ∧
      A.backward s bcb (fun i t => gr i t + a * gr' i t) (g.comb 1 a g') = .ok (some x) ∧
      A.ampPair (D.amps s) x.amps + (A.givenOf (D.wf s)).inner (outCells P) x.wf =
        A.ampPair (D.amps s) b.amps + (A.givenOf (D.wf s)).inner (outCells P) b.wf +
        a * (A.ampPair (D.amps s) b'.amps + (A.givenOf (D.wf s)).inner (outCells P) b'.wf) := fun D hD => by
    obtain ⟨u, b, hu, hb, e1⟩ := C95_source_gradients A P cf (plan_ok.2 h.good) h.interval h.pml h.freq hnt s h.lt h.src h.rcv
      bcb gr g D hD
    obtain ⟨u', b', hu', hb', e2⟩ := C95_source_gradients A P cf (plan_ok.2 h.good) h.interval h.pml h.freq hnt s h.lt h.src
      h.rcv bcb gr' g' D hD
    obtain ⟨y, x, hy, hx, e3⟩ := C95_source_gradients A P cf (plan_ok.2 h.good) h.interval h.pml h.freq hnt s h.lt h.src h.rcv
      bcb (fun i t => gr i t + a * gr' i t) (g.comb 1 a g') D hD
    obtain rfl : u = u' := funext fun e => Option.some.inj (Except.ok.inj ((hu e).symm.trans (hu' e)))
    obtain rfl : u = y := funext fun e => Option.some.inj (Except.ok.inj ((hu e).symm.trans (hy e)))
    refine ⟨b, b', x, hb, hb', hx, ?_⟩
    have e1 := e1 1
    have e2 := e2 1
    have e3 := e3 1
    rw [UShot.pair_comb, UShot.pair_comb] at e3
    linear_combination e1 + a * e2 - e3
  obtain ⟨b, b', x, hb, hb', hx, -⟩ := key ⟨fun _ _ => 0, fun _ _ _ => 0, fun _ => Wavefields.zero d⟩ rfl
  have key : ∀ D : UDir d, D.v = (fun _ _ => 0) →
      A.ampPair (D.amps s) x.amps + (A.givenOf (D.wf s)).inner (outCells P) x.wf =
        A.ampPair (D.amps s) b.amps + (A.givenOf (D.wf s)).inner (outCells P) b.wf +
        a * (A.ampPair (D.amps s) b'.amps + (A.givenOf (D.wf s)).inner (outCells P) b'.wf) := fun D hD => by
    obtain ⟨b1, b2, b3, h1, h2, h3, e⟩ := key D hD
    obtain rfl := Option.some.inj (Except.ok.inj (hb.symm.trans h1))
    obtain rfl := Option.some.inj (Except.ok.inj (hb'.symm.trans h2))
    obtain rfl := Option.some.inj (Except.ok.inj (hx.symm.trans h3))
    exact e
  refine ⟨b, b', x, hb, hb', hx, fun q hq i hi t ht => ?_, fun w => ?_⟩
  · have e := key ⟨fun _ _ => 0, ampBump s i t, fun _ => Wavefields.zero d⟩ rfl
    have e2 : A.givenOf (Wavefields.zero d) = Wavefields.zero d := by
      simp [UArgs.givenOf, Wavefields.zero]
    have e3 : ∀ y, A.ampPair (ampBump s i t s) y = y i t := fun y =>
      ampPair_bump A.amps s y (by rw [hq]; rfl) (by rw [hq]; rfl) hi ht
    dsimp only at e
    rw [e2, Wavefields.zero_inner, Wavefields.zero_inner, Wavefields.zero_inner, e3, e3, e3] at e
    linarith
  · have e := key ⟨fun _ _ => 0, fun _ _ _ => 0, fun _ => w⟩ rfl
    have e3 : ∀ y, A.ampPair (fun _ _ => 0) y = 0 := fun y => ampPair_zero A.amps y
    dsimp only at e
    rw [e3, e3, e3] at e
    linarith

/-- **C141** for the gradient of the velocity. -/
theorem C141_scalar_velocity (A : UArgs d) (P : Plan d) (cf : ℤ) (h : A.setup.plan = .ok P)
    (hmv : A.maxVel ≠ none) (hg : A.grad = true) (hr : P.ratio = 1) (hi : P.interval = 1) (hP : PmlOk P)
    (hcf : checkCallbackFrequency A.callbackFreq = .ok cf) (hnb : 0 < P.nb)
    (hsrc : ∀ s < P.nb, ∀ l, A.src = some l → WholeIgnored d l s)
    (hrcv : ∀ s < P.nb, ∀ l, A.rcv = some l → WholeIgnored d l s)
    (bcb : Bool) (a : ℝ) (gr gr' : ℕ → ℕ → ℕ → ℝ) (g g' : ℕ → Wavefields d ℝ)
    (j : ℕ) (hj : j < A.v.nb.getD 1) (c : Cell d) (hc : InShape A.v.shape c) :
    ∃ b b' x, (∀ s < P.nb, A.backward s bcb (gr s) (g s) = .ok (some (b s)) ∧ A.backward s bcb (gr' s) (g' s) = .ok (some (b' s)) ∧
      A.backward s bcb (fun i t => gr s i t + a * gr' s i t) ((g s).comb 1 a (g' s)) = .ok (some (x s))) ∧
      A.vGrad P x j c = A.vGrad P b j c + a * A.vGrad P b' j c := by
  let D : UDir d := ⟨bump 1 j c, fun _ _ _ => 0, fun _ => Wavefields.zero d⟩
  obtain ⟨u, b, hu, hb, e1⟩ := C94_gradients_exact A P cf h hmv hg hr hi hP hcf hnb hsrc hrcv bcb gr g D
  obtain ⟨u', b', hu', hb', e2⟩ := C94_gradients_exact A P cf h hmv hg hr hi hP hcf hnb hsrc hrcv bcb gr' g' D
  obtain ⟨y, x, hy, hx, e3⟩ := C94_gradients_exact A P cf h hmv hg hr hi hP hcf hnb hsrc hrcv bcb
    (fun s i t => gr s i t + a * gr' s i t) (fun s => (g s).comb 1 a (g' s)) D
  refine ⟨b, b', x, fun s hs => ⟨hb s hs, hb' s hs, hx s hs⟩, ?_⟩
  have e4 := e3.unique (((e1.add (e2.const_mul a))).congr_of_eventuallyEq (Filter.Eventually.of_forall fun e => by
    show _ = ∑ s ∈ Finset.range P.nb, _ + a * ∑ s ∈ Finset.range P.nb, _
    rw [Finset.mul_sum, ← Finset.sum_add_distrib]
    refine Finset.sum_congr rfl fun s hs => ?_
    have hs := Finset.mem_range.1 hs
    rw [Option.some.inj (Except.ok.inj ((hu' e s hs).symm.trans (hu e s hs))),
      Option.some.inj (Except.ok.inj ((hy e s hs).symm.trans (hu e s hs))), UShot.pair_comb]))
  have hz : ∀ b : ℕ → UGrad d, ∑ s ∈ Finset.range P.nb, (A.ampPair (D.amps s) (b s).amps +
      (A.givenOf (D.wf s)).inner (outCells P) (b s).wf) = 0 := fun b => Finset.sum_eq_zero fun s _ => by
    have e2 : A.givenOf (Wavefields.zero d) = Wavefields.zero d := by
      simp [UArgs.givenOf, Wavefields.zero]
    show A.ampPair (fun _ _ => 0) _ + (A.givenOf (Wavefields.zero d)).inner _ _ = 0
    rw [e2, Wavefields.zero_inner, add_zero]
    exact ampPair_zero A.amps _
  rw [hz, hz, hz] at e4
  simp only [D] at e4
  rw [bump_sum 1 hj (mem_box.2 hc), bump_sum 1 hj (mem_box.2 hc), bump_sum 1 hj (mem_box.2 hc)] at e4
  linarith

/-- The gradients of the last sample, of a sum over all samples, and of both together. -/
example : ∃ b b' x : ℕ → UGrad 2, exG.backward 0 false (fun _ t => if t = 4 then 1 else 0) (Wavefields.zero 2) = .ok (some (b 0)) ∧
    exG.backward 0 false (fun i t => (if t = 4 then 1 else 0) + 3 * t) ((Wavefields.zero 2).comb 1 3 (Wavefields.zero 2)) = .ok (some (x 0)) ∧
    exG.vGrad exGP x 0 ![5, 5] = exG.vGrad exGP b 0 ![5, 5] + 3 * exG.vGrad exGP b' 0 ![5, 5] := by
  obtain ⟨b, b', x, h1, h2⟩ := C141_scalar_velocity exG exGP 1 (plan_ok.2 exG_good) (by simp [exG, exV, exU]) rfl rfl rfl
    (.inl (by norm_num [exGP, exQ])) rfl one_pos (fun s hs => (exV_accepted 3 (.inr rfl) s hs).src)
    (fun s hs => (exV_accepted 3 (.inr rfl) s hs).rcv) false 3 (fun _ _ t => if t = 4 then 1 else 0) (fun _ _ t => t)
    (fun _ => Wavefields.zero 2) (fun _ => Wavefields.zero 2) 0 one_pos ![5, 5] (fun k => by fin_cases k <;> decide)
  exact ⟨b, b', x, (h1 0 one_pos).1, (h1 0 one_pos).2.2, h2⟩

/-- The gradient of the amplitudes, with every second step stored. -/
example : ∃ b b' x : UGrad 2, (exV 3).backward 0 false (fun _ t => if t = 4 then 1 else 0) (Wavefields.zero 2) = .ok (some b) ∧
    (exV 3).backward 0 false (fun i t => (if t = 4 then 1 else 0) + 3 * t) ((Wavefields.zero 2).comb 1 3 (Wavefields.zero 2)) = .ok (some x) ∧
    x.amps 0 1 = b.amps 0 1 + 3 * b'.amps 0 1 := by
  obtain ⟨b, b', x, h1, h2, h3, h4, -⟩ := C141_scalar_sources (exV 3) (exQ 3) 0 1 exV_fwd false 3
    (fun _ t => if t = 4 then 1 else 0) (fun _ t => t) (Wavefields.zero 2) (Wavefields.zero 2) (.inl (by norm_num [exQ]))
  exact ⟨b, b', x, h1, h3, h4 _ rfl 0 (by norm_num) 1 (by norm_num)⟩

end Dw.Scalar

namespace Dw.Born

open Setup Resample Scalar

variable {d : ℕ}

theorem UShot.pair_comb (r : UShot d) (A : UArgs d) (S : Finset (Cell d)) (a : ℝ) (gr gr' gs gs' : ℕ → ℕ → ℝ)
    (g g' f f' : Wavefields d ℝ) :
    r.pair A S (fun i t => gr i t + a * gr' i t) (fun i t => gs i t + a * gs' i t) (g.comb 1 a g') (f.comb 1 a f') =
      r.pair A S gr gs g f + a * r.pair A S gr' gs' g' f' := by
  unfold UShot.pair
  simp only [tracePair_comb, Wavefields.inner_comb]
  ring

theorem givenOf_zero (w : UWf d) : w.givenOf (Wavefields.zero d) = Wavefields.zero d := by
  simp [UWf.givenOf, Wavefields.zero]

/-- **C141** Gradients of source amplitudes and initial wavefields of `scalar_born`, if all gradients are computed. -/
theorem C141_born_sources (A : UArgs d) (P : Plan d) (s : ℕ) (cf : ℤ) (h : Fwd A P s cf) (full bcb : Bool)
    (hfull : (A.gradV || full) = true) (a : ℝ) (gr gr' gs gs' : ℕ → ℕ → ℝ) (g g' f f' : Wavefields d ℝ)
    (hnt : P.ratio * P.interval ≤ P.nt ∨ P.nt ≤ 0) :
    ∃ b b' x : UGrad d, A.backward s full bcb gr gs g f = .ok (some b) ∧ A.backward s full bcb gr' gs' g' f' = .ok (some b') ∧
      A.backward s full bcb (fun i t => gr i t + a * gr' i t) (fun i t => gs i t + a * gs' i t) (g.comb 1 a g')
        (f.comb 1 a f') = .ok (some x) ∧
      (∀ q, A.amps = some q → ∀ i < q.n, ∀ t < q.nt, x.amps i t = b.amps i t + a * b'.amps i t) ∧
      (∀ w, (A.wf.givenOf w).inner (outCells P) x.wf =
        (A.wf.givenOf w).inner (outCells P) b.wf + a * (A.wf.givenOf w).inner (outCells P) b'.wf) ∧
      ∀ w, (A.wfsc.givenOf w).inner (outCells P) x.wfsc =
        (A.wfsc.givenOf w).inner (outCells P) b.wfsc + a * (A.wfsc.givenOf w).inner (outCells P) b'.wfsc := by
  have key : ∀ D : UDir d, D.v = (fun _ _ => 0) → D.scatter = (fun _ _ => 0) → ∃ b b' x : UGrad d,
      A.backward s full bcb gr gs g f = .ok (some b) ∧ A.backward s full bcb gr' gs' g' f' = .ok (some b') ∧
      A.backward s full bcb (fun i t => gr i t + a * gr' i t) (fun i t => gs i t + a * gs' i t) (g.comb 1 a g')
        (f.comb 1 a f') = .ok (some x) ∧
      ampPair A.amps (D.amps s) x.amps + (A.wf.givenOf (D.wf s)).inner (outCells P) x.wf +
          (A.wfsc.givenOf (D.wfsc s)).inner (outCells P) x.wfsc =
        ampPair A.amps (D.amps s) b.amps + (A.wf.givenOf (D.wf s)).inner (outCells P) b.wf +
          (A.wfsc.givenOf (D.wfsc s)).inner (outCells P) b.wfsc +
        a * (ampPair A.amps (D.amps s) b'.amps + (A.wf.givenOf (D.wf s)).inner (outCells P) b'.wf +
          (A.wfsc.givenOf (D.wfsc s)).inner (outCells P) b'.wfsc) := fun D h1 h2 => by
    obtain ⟨u, b, hu, hb, e1⟩ := C97_born_source_gradients A P cf (plan_ok.2 h.good) h.interval h.pml h.freq hnt s h.lt h.loc
      full bcb gr gs g f D h1 h2 (.inl hfull)
    obtain ⟨u', b', hu', hb', e2⟩ := C97_born_source_gradients A P cf (plan_ok.2 h.good) h.interval h.pml h.freq hnt s h.lt h.loc
      full bcb gr' gs' g' f' D h1 h2 (.inl hfull)
    obtain ⟨y, x, hy, hx, e3⟩ := C97_born_source_gradients A P cf (plan_ok.2 h.good) h.interval h.pml h.freq hnt s h.lt h.loc
      full bcb (fun i t => gr i t + a * gr' i t) (fun i t => gs i t + a * gs' i t) (g.comb 1 a g') (f.comb 1 a f') D h1 h2
      (.inl hfull)
    obtain rfl : u = u' := funext fun e => Option.some.inj (Except.ok.inj ((hu e).symm.trans (hu' e)))
    obtain rfl : u = y := funext fun e => Option.some.inj (Except.ok.inj ((hu e).symm.trans (hy e)))
    refine ⟨b, b', x, hb, hb', hx, ?_⟩
    have e1 := e1 1
    have e2 := e2 1
    have e3 := e3 1
    rw [UShot.pair_comb, UShot.pair_comb] at e3
    linear_combination e1 + a * e2 - e3
  obtain ⟨b, b', x, hb, hb', hx, -⟩ := key ⟨fun _ _ => 0, fun _ _ => 0, fun _ _ _ => 0, fun _ => Wavefields.zero d,
    fun _ => Wavefields.zero d⟩ rfl rfl
  have key : ∀ D : UDir d, D.v = (fun _ _ => 0) → D.scatter = (fun _ _ => 0) →
      ampPair A.amps (D.amps s) x.amps + (A.wf.givenOf (D.wf s)).inner (outCells P) x.wf +
          (A.wfsc.givenOf (D.wfsc s)).inner (outCells P) x.wfsc =
        ampPair A.amps (D.amps s) b.amps + (A.wf.givenOf (D.wf s)).inner (outCells P) b.wf +
          (A.wfsc.givenOf (D.wfsc s)).inner (outCells P) b.wfsc +
        a * (ampPair A.amps (D.amps s) b'.amps + (A.wf.givenOf (D.wf s)).inner (outCells P) b'.wf +
          (A.wfsc.givenOf (D.wfsc s)).inner (outCells P) b'.wfsc) := fun D h1 h2 => by
    obtain ⟨b1, b2, b3, x1, x2, x3, e⟩ := key D h1 h2
    obtain rfl := Option.some.inj (Except.ok.inj (hb.symm.trans x1))
    obtain rfl := Option.some.inj (Except.ok.inj (hb'.symm.trans x2))
    obtain rfl := Option.some.inj (Except.ok.inj (hx.symm.trans x3))
    exact e
  refine ⟨b, b', x, hb, hb', hx, fun q hq i hi t ht => ?_, fun w => ?_, fun w => ?_⟩
  · have e := key ⟨fun _ _ => 0, fun _ _ => 0, ampBump s i t, fun _ => Wavefields.zero d, fun _ => Wavefields.zero d⟩ rfl rfl
    have e3 : ∀ y, ampPair A.amps (ampBump s i t s) y = y i t := fun y =>
      ampPair_bump A.amps s y (by rw [hq]; rfl) (by rw [hq]; rfl) hi ht
    simp only [givenOf_zero, Wavefields.zero_inner, add_zero, e3] at e
    exact e
  · have e := key ⟨fun _ _ => 0, fun _ _ => 0, fun _ _ _ => 0, fun _ => w, fun _ => Wavefields.zero d⟩ rfl rfl
    simp only [givenOf_zero, Wavefields.zero_inner, add_zero, ampPair_zero, zero_add] at e
    exact e
  · have e := key ⟨fun _ _ => 0, fun _ _ => 0, fun _ _ _ => 0, fun _ => Wavefields.zero d, fun _ => w⟩ rfl rfl
    simp only [givenOf_zero, Wavefields.zero_inner, add_zero, ampPair_zero, zero_add] at e
    exact e

/-- The hypotheses of C96. -/
structure Exact (A : UArgs d) (P : Plan d) (cf : ℤ) : Prop where
  plan : A.setup.plan = .ok P
  maxVel : A.opts.maxVel ≠ none
  ratio : P.ratio = 1
  interval : P.interval = 1
  pml : PmlOk P
  freq : checkCallbackFrequency A.opts.callbackFreq = .ok cf
  nb : 0 < P.nb
  loc : ∀ s < P.nb, ∀ l, A.src = some l ∨ A.rcv = some l ∨ A.bgRcv = some l → WholeIgnored d l s

theorem Exact.linear {A : UArgs d} {P : Plan d} {cf : ℤ} (h : Exact A P cf) (full bcb : Bool) (a : ℝ)
    (gr gr' gs gs' : ℕ → ℕ → ℕ → ℝ) (g g' f f' : ℕ → Wavefields d ℝ) (x y : ℝ) (j : ℕ) (c : Cell d)
    (hV : A.gradV = true ∨ x = 0) (hS : A.gradS = true ∨ y = 0)
    (hx : x = 0 ∨ j < A.v.nb.getD 1 ∧ InShape A.v.shape c)
    (hy : y = 0 ∨ j < A.scatter.nb.getD 1 ∧ InShape A.scatter.shape c) :
    ∃ b b' q, (∀ s < P.nb, A.backward s full bcb (gr s) (gs s) (g s) (f s) = .ok (some (b s)) ∧
      A.backward s full bcb (gr' s) (gs' s) (g' s) (f' s) = .ok (some (b' s)) ∧
      A.backward s full bcb (fun i t => gr s i t + a * gr' s i t) (fun i t => gs s i t + a * gs' s i t)
        ((g s).comb 1 a (g' s)) ((f s).comb 1 a (f' s)) = .ok (some (q s))) ∧
      x * A.vGrad P q j c + y * A.scatterGrad P q j c =
        x * A.vGrad P b j c + y * A.scatterGrad P b j c + a * (x * A.vGrad P b' j c + y * A.scatterGrad P b' j c) := by
  have b0 : (bump 0 j c : ℕ → Fld d ℝ) = fun _ _ => 0 := by
    funext j' c'
    simp [bump]
  let D : UDir d := ⟨bump x j c, bump y j c, fun _ _ _ => 0, fun _ => Wavefields.zero d, fun _ => Wavefields.zero d⟩
  have k1 : A.gradV = true ∨ D.v = fun _ _ => 0 := hV.imp id fun h0 => by simp only [D]; rw [h0, b0]
  have k2 : A.gradS = true ∨ D.scatter = fun _ _ => 0 := hS.imp id fun h0 => by simp only [D]; rw [h0, b0]
  obtain ⟨u, b, hu, hb, e1⟩ := C96_born_gradients_exact A P cf h.plan h.maxVel h.ratio h.interval h.pml h.freq h.nb
    h.loc full bcb gr gs g f D k1 k2 (.inr ⟨rfl, rfl⟩)
  obtain ⟨u', b', hu', hb', e2⟩ := C96_born_gradients_exact A P cf h.plan h.maxVel h.ratio h.interval h.pml h.freq h.nb
    h.loc full bcb gr' gs' g' f' D k1 k2 (.inr ⟨rfl, rfl⟩)
  obtain ⟨u'', q, hy', hq, e3⟩ := C96_born_gradients_exact A P cf h.plan h.maxVel h.ratio h.interval h.pml h.freq h.nb
    h.loc full bcb (fun s i t => gr s i t + a * gr' s i t) (fun s i t => gs s i t + a * gs' s i t)
    (fun s => (g s).comb 1 a (g' s)) (fun s => (f s).comb 1 a (f' s)) D k1 k2 (.inr ⟨rfl, rfl⟩)
  refine ⟨b, b', q, fun s hs => ⟨hb s hs, hb' s hs, hq s hs⟩, ?_⟩
  have e4 := e3.unique (((e1.add (e2.const_mul a))).congr_of_eventuallyEq (Filter.Eventually.of_forall fun e => by
    show _ = ∑ s ∈ Finset.range P.nb, _ + a * ∑ s ∈ Finset.range P.nb, _
    rw [Finset.mul_sum, ← Finset.sum_add_distrib]
    refine Finset.sum_congr rfl fun s hs => ?_
    have hs := Finset.mem_range.1 hs
    rw [Option.some.inj (Except.ok.inj ((hu' e s hs).symm.trans (hu e s hs))),
      Option.some.inj (Except.ok.inj ((hy' e s hs).symm.trans (hu e s hs))), UShot.pair_comb]))
  have sum : ∀ (x : ℝ) (m : ModelT d ℝ) (g : ℕ → Fld d ℝ), (x = 0 ∨ j < m.nb.getD 1 ∧ InShape m.shape c) →
      ∑ i ∈ Finset.range (m.nb.getD 1), ∑ c' ∈ box (fun _ => 0) m.shape, bump x j c i c' * g i c' = x * g j c := by
    intro x m g hx
    rcases hx with rfl | hx
    · simp [b0]
    · exact bump_sum x hx.1 (mem_box.2 hx.2) g
  simp only [D, givenOf_zero, Wavefields.zero_inner, ampPair_zero, Finset.sum_const_zero, add_zero, sum x A.v _ hx,
    sum y A.scatter _ hy] at e4
  exact e4

/-- **C141** for the gradient of the velocity of `scalar_born`. -/
theorem C141_born_velocity {A : UArgs d} {P : Plan d} {cf : ℤ} (h : Exact A P cf) (full bcb : Bool) (a : ℝ)
    (gr gr' gs gs' : ℕ → ℕ → ℕ → ℝ) (g g' f f' : ℕ → Wavefields d ℝ) (hg : A.gradV = true)
    (j : ℕ) (hj : j < A.v.nb.getD 1) (c : Cell d) (hc : InShape A.v.shape c) :
    ∃ b b' q, (∀ s < P.nb, A.backward s full bcb (gr s) (gs s) (g s) (f s) = .ok (some (b s)) ∧
      A.backward s full bcb (gr' s) (gs' s) (g' s) (f' s) = .ok (some (b' s)) ∧
      A.backward s full bcb (fun i t => gr s i t + a * gr' s i t) (fun i t => gs s i t + a * gs' s i t)
        ((g s).comb 1 a (g' s)) ((f s).comb 1 a (f' s)) = .ok (some (q s))) ∧
      A.vGrad P q j c = A.vGrad P b j c + a * A.vGrad P b' j c := by
  obtain ⟨b, b', q, h1, h2⟩ := h.linear full bcb a gr gr' gs gs' g g' f f' 1 0 j c (.inl hg) (.inr rfl) (.inr ⟨hj, hc⟩) (.inl rfl)
  exact ⟨b, b', q, h1, by linarith⟩

/-- **C141** for the gradient of the scattering potential. -/
theorem C141_born_scatter {A : UArgs d} {P : Plan d} {cf : ℤ} (h : Exact A P cf) (full bcb : Bool) (a : ℝ)
    (gr gr' gs gs' : ℕ → ℕ → ℕ → ℝ) (g g' f f' : ℕ → Wavefields d ℝ) (hg : A.gradS = true)
    (j : ℕ) (hj : j < A.scatter.nb.getD 1) (c : Cell d) (hc : InShape A.scatter.shape c) :
    ∃ b b' q, (∀ s < P.nb, A.backward s full bcb (gr s) (gs s) (g s) (f s) = .ok (some (b s)) ∧
      A.backward s full bcb (gr' s) (gs' s) (g' s) (f' s) = .ok (some (b' s)) ∧
      A.backward s full bcb (fun i t => gr s i t + a * gr' s i t) (fun i t => gs s i t + a * gs' s i t)
        ((g s).comb 1 a (g' s)) ((f s).comb 1 a (f' s)) = .ok (some (q s))) ∧
      A.scatterGrad P q j c = A.scatterGrad P b j c + a * A.scatterGrad P b' j c := by
  obtain ⟨b, b', q, h1, h2⟩ := h.linear full bcb a gr gr' gs gs' g g' f f' 0 1 j c (.inr rfl) (.inl hg) (.inl rfl) (.inr ⟨hj, hc⟩)
  exact ⟨b, b', q, h1, by linarith⟩

theorem exG_exact (gv : Bool) : Exact (exG gv) exGP 1 where
  plan := plan_ok.2 (exG_good gv)
  maxVel := by simp [exG, exO1, exO]
  ratio := rfl
  interval := rfl
  pml := .inl (by norm_num [exGP, exPl1, exPl])
  freq := rfl
  nb := by norm_num [exGP, exPl1, exPl]
  loc := fun s hs => exU_locs hs

/-- The gradients of the last scattered samples, of a sum over all background samples, and of both together. -/
example : ∃ b b' q : ℕ → UGrad 2,
    (exG false).backward 1 false false (fun _ t => 0 + 3 * t) (fun _ t => (if t = 4 then 1 else 0) + 3 * 0)
      ((Wavefields.zero 2).comb 1 3 (Wavefields.zero 2)) ((Wavefields.zero 2).comb 1 3 (Wavefields.zero 2)) = .ok (some (q 1)) ∧
    (exG false).scatterGrad exGP q 0 ![3, 3] =
      (exG false).scatterGrad exGP b 0 ![3, 3] + 3 * (exG false).scatterGrad exGP b' 0 ![3, 3] := by
  obtain ⟨b, b', q, h1, h2⟩ := C141_born_scatter (exG_exact false) false false 3 (fun _ _ _ => 0) (fun _ _ t => t)
    (fun _ _ t => if t = 4 then 1 else 0) (fun _ _ _ => 0) (fun _ => Wavefields.zero 2) (fun _ => Wavefields.zero 2)
    (fun _ => Wavefields.zero 2) (fun _ => Wavefields.zero 2) rfl 0 one_pos ![3, 3] (fun k => by fin_cases k <;> decide)
  exact ⟨b, b', q, (h1 1 (by norm_num [exGP, exPl1, exPl])).2.2, h2⟩

/-- Three internal steps per sample. -/
example : ∃ b b' q : UGrad 2,
    (exU .none).backward 1 false true (fun _ t => 0 + 3 * t) (fun _ t => (if t = 4 then 1 else 0) + 3 * 0)
      ((Wavefields.zero 2).comb 1 3 (Wavefields.zero 2)) ((Wavefields.zero 2).comb 1 3 (Wavefields.zero 2)) = .ok (some q) ∧
    q.amps 0 1 = b.amps 0 1 + 3 * b'.amps 0 1 := by
  obtain ⟨b, b', q, -, -, h1, h2, -⟩ := C141_born_sources (exU .none) (exP ![(0, 7), (0, 9)]) 1 1
    ⟨exU_whole, by norm_num [exP, exPl], .inl (by norm_num [exP, exPl]), exU_locs (by norm_num), rfl, by norm_num [exP, exPl],
      .inr (.inl (by norm_num [exP, exPl]))⟩
    false true rfl 3 (fun _ _ => 0) (fun _ t => t) (fun _ t => if t = 4 then 1 else 0) (fun _ _ => 0)
    (Wavefields.zero 2) (Wavefields.zero 2) (Wavefields.zero 2) (Wavefields.zero 2) (.inl (by norm_num [exP, exPl]))
  exact ⟨b, b', q, h1, h2 _ rfl 0 (by norm_num [Setup.exAmp]) 1 (by norm_num [Setup.exAmp])⟩

end Dw.Born

namespace Dw.Acoustic

open Setup Resample Scalar

variable {d : ℕ}

theorem Wavefields.inner_comb (S : Finset (Cell d)) (a : ℝ) (x w w' : Wavefields d ℝ) :
    x.inner S (w.comb 1 a w') = x.inner S w + a * x.inner S w' := by
  unfold Wavefields.inner Wavefields.comb
  simp only [mul_add, one_mul, Finset.sum_add_distrib, Finset.mul_sum, mul_left_comm _ a]
  ring

theorem UShot.pair_comb (r : UShot d) (A : UArgs d) (S : Finset (Cell d)) (a : ℝ) (gr gr' : ℕ → ℕ → ℝ)
    (gv gv' : Fin d → ℕ → ℕ → ℝ) (g g' : Wavefields d ℝ) :
    r.pair A S (fun i t => gr i t + a * gr' i t) (fun k i t => gv k i t + a * gv' k i t) (g.comb 1 a g') =
      r.pair A S gr gv g + a * r.pair A S gr' gv' g' := by
  unfold UShot.pair
  simp only [tracePair_comb, Wavefields.inner_comb, Finset.sum_add_distrib, ← Finset.mul_sum]
  ring

theorem givenOf_noWf (w : UWf d) (S : Finset (Cell d)) (y : Wavefields d ℝ) : (w.givenOf (noWf d)).inner S y = 0 := by
  simp [UWf.givenOf, noWf, Wavefields.inner]

/-- **C141** Gradients of source amplitudes and initial wavefields of `acoustic`. -/
theorem C141_acoustic_sources (A : UArgs d) (P : Plan d) (s : ℕ) (cf : ℤ) (h : Fwd A P s cf)
    (hbig : ∀ k, (P.acc.pad : ℤ) + 1 ≤ (P.ext k).2 - (P.ext k).1 + P.w1 k) (bcb : Bool) (a : ℝ)
    (gr gr' : ℕ → ℕ → ℝ) (gv gv' : Fin d → ℕ → ℕ → ℝ) (g g' : Wavefields d ℝ)
    (hnt : P.ratio * P.interval ≤ P.nt ∨ P.nt ≤ 0) :
    ∃ b b' x : UGrad d, A.backward s bcb gr gv g = .ok (some b) ∧ A.backward s bcb gr' gv' g' = .ok (some b') ∧
      A.backward s bcb (fun i t => gr i t + a * gr' i t) (fun k i t => gv k i t + a * gv' k i t) (g.comb 1 a g') =
        .ok (some x) ∧
      (∀ q, A.ampP = some q → ∀ i < q.n, ∀ t < q.nt, x.ampP i t = b.ampP i t + a * b'.ampP i t) ∧
      (∀ k q, A.ampV k = some q → ∀ i < q.n, ∀ t < q.nt, x.ampV k i t = b.ampV k i t + a * b'.ampV k i t) ∧
      ∀ w, (A.wf.givenOf w).inner (outCells P) x.wf =
        (A.wf.givenOf w).inner (outCells P) b.wf + a * (A.wf.givenOf w).inner (outCells P) b'.wf := by
  have key : ∀ D : UDir d, D.v = (fun _ _ => 0) → D.rho = (fun _ _ => 0) → ∃ b b' x : UGrad d, A.backward s bcb gr gv g = .ok (some b) ∧
      A.backward s bcb gr' gv' g' = .ok (some b') ∧
      A.backward s bcb (fun i t => gr i t + a * gr' i t) (fun k i t => gv k i t + a * gv' k i t) (g.comb 1 a g') =
        .ok (some x) ∧
      ampPair A.ampP (D.ampP s) x.ampP + ∑ k, ampPair (A.ampV k) (D.ampV k s) (x.ampV k) +
          (A.wf.givenOf (D.wf s)).inner (outCells P) x.wf =
        ampPair A.ampP (D.ampP s) b.ampP + ∑ k, ampPair (A.ampV k) (D.ampV k s) (b.ampV k) +
          (A.wf.givenOf (D.wf s)).inner (outCells P) b.wf +
        a * (ampPair A.ampP (D.ampP s) b'.ampP + ∑ k, ampPair (A.ampV k) (D.ampV k s) (b'.ampV k) +
          (A.wf.givenOf (D.wf s)).inner (outCells P) b'.wf) := fun D h1 h2 => by
    obtain ⟨u, b, hu, hb, e1⟩ := C99_acoustic_source_gradients A P cf (plan_ok.2 h.good) h.pre h.interval h.pml h.freq hnt s
      h.lt h.loc h.last hbig bcb gr gv g D h1 h2
    obtain ⟨u', b', hu', hb', e2⟩ := C99_acoustic_source_gradients A P cf (plan_ok.2 h.good) h.pre h.interval h.pml h.freq
      hnt s h.lt h.loc h.last hbig bcb gr' gv' g' D h1 h2
    obtain ⟨y, x, hy, hx, e3⟩ := C99_acoustic_source_gradients A P cf (plan_ok.2 h.good) h.pre h.interval h.pml h.freq hnt s
      h.lt h.loc h.last hbig bcb (fun i t => gr i t + a * gr' i t) (fun k i t => gv k i t + a * gv' k i t) (g.comb 1 a g') D h1 h2
    obtain rfl : u = u' := funext fun e => Option.some.inj (Except.ok.inj ((hu e).symm.trans (hu' e)))
    obtain rfl : u = y := funext fun e => Option.some.inj (Except.ok.inj ((hu e).symm.trans (hy e)))
    refine ⟨b, b', x, hb, hb', hx, ?_⟩
    have e1 := e1 1
    have e2 := e2 1
    have e3 := e3 1
    rw [UShot.pair_comb, UShot.pair_comb] at e3
    linear_combination e1 + a * e2 - e3
  obtain ⟨b, b', x, hb, hb', hx, -⟩ := key ⟨fun _ _ => 0, fun _ _ => 0, fun _ _ _ => 0, fun _ _ _ _ => 0, fun _ => noWf d⟩ rfl rfl
  have key : ∀ D : UDir d, D.v = (fun _ _ => 0) → D.rho = (fun _ _ => 0) →
      ampPair A.ampP (D.ampP s) x.ampP + ∑ k, ampPair (A.ampV k) (D.ampV k s) (x.ampV k) +
          (A.wf.givenOf (D.wf s)).inner (outCells P) x.wf =
        ampPair A.ampP (D.ampP s) b.ampP + ∑ k, ampPair (A.ampV k) (D.ampV k s) (b.ampV k) +
          (A.wf.givenOf (D.wf s)).inner (outCells P) b.wf +
        a * (ampPair A.ampP (D.ampP s) b'.ampP + ∑ k, ampPair (A.ampV k) (D.ampV k s) (b'.ampV k) +
          (A.wf.givenOf (D.wf s)).inner (outCells P) b'.wf) := fun D h1 h2 => by
    obtain ⟨b1, b2, b3, x1, x2, x3, e⟩ := key D h1 h2
    obtain rfl := Option.some.inj (Except.ok.inj (hb.symm.trans x1))
    obtain rfl := Option.some.inj (Except.ok.inj (hb'.symm.trans x2))
    obtain rfl := Option.some.inj (Except.ok.inj (hx.symm.trans x3))
    exact e
  refine ⟨b, b', x, hb, hb', hx, fun q hq i hi t ht => ?_, fun k q hq i hi t ht => ?_, fun w => ?_⟩
  · have e := key ⟨fun _ _ => 0, fun _ _ => 0, ampBump s i t, fun _ _ _ _ => 0, fun _ => noWf d⟩ rfl rfl
    have e3 : ∀ y, ampPair A.ampP (ampBump s i t s) y = y i t := fun y =>
      ampPair_bump A.ampP s y (by rw [hq]; rfl) (by rw [hq]; rfl) hi ht
    simp only [givenOf_noWf, ampPair_zero, Finset.sum_const_zero, add_zero, e3] at e
    exact e
  · have e := key ⟨fun _ _ => 0, fun _ _ => 0, fun _ _ _ => 0, fun k' => if k' = k then ampBump s i t else fun _ _ _ => 0, fun _ => noWf d⟩ rfl rfl
    have e3 : ∀ y : Fin d → ℕ → ℕ → ℝ, ∑ k', ampPair (A.ampV k') ((if k' = k then ampBump s i t else fun _ _ _ => 0) s) (y k') =
        y k i t := fun y => by
      rw [Finset.sum_eq_single k (fun k' _ hk => by rw [if_neg hk, ampPair_zero]) (fun hk => absurd (Finset.mem_univ _) hk),
        if_pos rfl]
      exact ampPair_bump (A.ampV k) s (y k) (by rw [hq]; rfl) (by rw [hq]; rfl) hi ht
    simp only [givenOf_noWf, ampPair_zero, e3, add_zero, zero_add] at e
    exact e
  · have e := key ⟨fun _ _ => 0, fun _ _ => 0, fun _ _ _ => 0, fun _ _ _ _ => 0, fun _ => w⟩ rfl rfl
    simp only [ampPair_zero, Finset.sum_const_zero, zero_add] at e
    exact e

/-- The hypotheses of C98. -/
structure Exact (A : UArgs d) (P : Plan d) (cf : ℤ) : Prop where
  plan : A.setup.plan = .ok P
  pre : ¬A.Pre
  maxVel : A.opts.maxVel ≠ none
  ratio : P.ratio = 1
  interval : P.interval = 1
  pml : PmlOk P
  freq : checkCallbackFrequency A.opts.callbackFreq = .ok cf
  nb : 0 < P.nb
  loc : ∀ s < P.nb, ∀ l, some l ∈ A.setup.srcs ++ A.setup.rcvs → WholeIgnored d l s
  last : ∀ s < P.nb, ∀ k, 0 < P.w1 k ∨ (P.ext k).2 = A.v.shape k ∨ P.BeforeLast k s (A.srcV k) ∧ P.BeforeLast k s (A.rcvV k)
  big : ∀ k, (P.acc.pad : ℤ) + 1 ≤ (P.ext k).2 - (P.ext k).1 + P.w1 k
  rfmax : 0 ≤ A.rfmax
  smooth : ∀ s < P.nb, ∀ k c, |Spec.mean (P.grid.extend (A.rho.shot s)) k c| ≠ A.rfmax

theorem Exact.linear {A : UArgs d} {P : Plan d} {cf : ℤ} (h : Exact A P cf) (bcb : Bool) (a : ℝ) (gr gr' : ℕ → ℕ → ℕ → ℝ)
    (gv gv' : ℕ → Fin d → ℕ → ℕ → ℝ) (g g' : ℕ → Wavefields d ℝ) (x y : ℝ) (j : ℕ) (c : Cell d)
    (hK : A.gradK = true) (hB : A.gradB = true ∨ y = 0)
    (hx : x = 0 ∨ j < A.v.nb.getD 1 ∧ InShape A.v.shape c)
    (hy : y = 0 ∨ j < A.rho.nb.getD 1 ∧ InShape A.rho.shape c) :
    ∃ b b' q, (∀ s < P.nb, A.backward s bcb (gr s) (gv s) (g s) = .ok (some (b s)) ∧
      A.backward s bcb (gr' s) (gv' s) (g' s) = .ok (some (b' s)) ∧
      A.backward s bcb (fun i t => gr s i t + a * gr' s i t) (fun k i t => gv s k i t + a * gv' s k i t)
        ((g s).comb 1 a (g' s)) = .ok (some (q s))) ∧
      x * A.vGrad P q j c + y * A.rhoGrad P q j c =
        x * A.vGrad P b j c + y * A.rhoGrad P b j c + a * (x * A.vGrad P b' j c + y * A.rhoGrad P b' j c) := by
  have b0 : (bump 0 j c : ℕ → Fld d ℝ) = fun _ _ => 0 := by
    funext j' c'
    simp [bump]
  let D : UDir d := ⟨bump x j c, bump y j c, fun _ _ _ => 0, fun _ _ _ _ => 0, fun _ => noWf d⟩
  obtain ⟨u, b, hu, hb, e1⟩ := C98_acoustic_gradients_exact A P cf h.plan h.pre h.maxVel h.ratio h.interval h.pml h.freq h.nb
    h.loc h.last h.big h.rfmax h.smooth bcb gr gv g D (.inl hK) (hB.imp id fun h0 => by simp only [D]; rw [h0, b0])
  obtain ⟨u', b', hu', hb', e2⟩ := C98_acoustic_gradients_exact A P cf h.plan h.pre h.maxVel h.ratio h.interval h.pml h.freq h.nb
    h.loc h.last h.big h.rfmax h.smooth bcb gr' gv' g' D (.inl hK) (hB.imp id fun h0 => by simp only [D]; rw [h0, b0])
  obtain ⟨u'', q, hy', hq, e3⟩ := C98_acoustic_gradients_exact A P cf h.plan h.pre h.maxVel h.ratio h.interval h.pml h.freq h.nb
    h.loc h.last h.big h.rfmax h.smooth bcb
    (fun s i t => gr s i t + a * gr' s i t) (fun s k i t => gv s k i t + a * gv' s k i t) (fun s => (g s).comb 1 a (g' s)) D (.inl hK) (hB.imp id fun h0 => by simp only [D]; rw [h0, b0])
  refine ⟨b, b', q, fun s hs => ⟨hb s hs, hb' s hs, hq s hs⟩, ?_⟩
  have e4 := e3.unique (((e1.add (e2.const_mul a))).congr_of_eventuallyEq (Filter.Eventually.of_forall fun e => by
    show _ = ∑ s ∈ Finset.range P.nb, _ + a * ∑ s ∈ Finset.range P.nb, _
    rw [Finset.mul_sum, ← Finset.sum_add_distrib]
    refine Finset.sum_congr rfl fun s hs => ?_
    have hs := Finset.mem_range.1 hs
    rw [Option.some.inj (Except.ok.inj ((hu' e s hs).symm.trans (hu e s hs))),
      Option.some.inj (Except.ok.inj ((hy' e s hs).symm.trans (hu e s hs))), UShot.pair_comb]))
  have sum : ∀ (x : ℝ) (m : ModelT d ℝ) (g : ℕ → Fld d ℝ), (x = 0 ∨ j < m.nb.getD 1 ∧ InShape m.shape c) →
      ∑ i ∈ Finset.range (m.nb.getD 1), ∑ c' ∈ box (fun _ => 0) m.shape, bump x j c i c' * g i c' = x * g j c := by
    intro x m g hx
    rcases hx with rfl | hx
    · simp [b0]
    · exact bump_sum x hx.1 (mem_box.2 hx.2) g
  simp only [D, givenOf_noWf, ampPair_zero, Finset.sum_const_zero, add_zero, sum x A.v _ hx, sum y A.rho _ hy] at e4
  exact e4

/-- **C141** for the gradient of `velocity`. -/
theorem C141_acoustic_velocity {A : UArgs d} {P : Plan d} {cf : ℤ} (h : Exact A P cf) (bcb : Bool) (a : ℝ) (gr gr' : ℕ → ℕ → ℕ → ℝ)
    (gv gv' : ℕ → Fin d → ℕ → ℕ → ℝ) (g g' : ℕ → Wavefields d ℝ) (hK : A.gradK = true)
    (j : ℕ) (hj : j < A.v.nb.getD 1) (c : Cell d) (hc : InShape A.v.shape c) :
    ∃ b b' q, (∀ s < P.nb, A.backward s bcb (gr s) (gv s) (g s) = .ok (some (b s)) ∧
      A.backward s bcb (gr' s) (gv' s) (g' s) = .ok (some (b' s)) ∧
      A.backward s bcb (fun i t => gr s i t + a * gr' s i t) (fun k i t => gv s k i t + a * gv' s k i t)
        ((g s).comb 1 a (g' s)) = .ok (some (q s))) ∧
      A.vGrad P q j c = A.vGrad P b j c + a * A.vGrad P b' j c := by
  obtain ⟨b, b', q, h1, h2⟩ := h.linear bcb a gr gr' gv gv' g g' 1 0 j c hK (.inr rfl) (.inr ⟨hj, hc⟩) (.inl rfl)
  exact ⟨b, b', q, h1, by linarith⟩

/-- **C141** for the gradient of `density`. -/
theorem C141_acoustic_density {A : UArgs d} {P : Plan d} {cf : ℤ} (h : Exact A P cf) (bcb : Bool) (a : ℝ) (gr gr' : ℕ → ℕ → ℕ → ℝ)
    (gv gv' : ℕ → Fin d → ℕ → ℕ → ℝ) (g g' : ℕ → Wavefields d ℝ) (hK : A.gradK = true) (hB : A.gradB = true)
    (j : ℕ) (hj : j < A.rho.nb.getD 1) (c : Cell d) (hc : InShape A.rho.shape c) :
    ∃ b b' q, (∀ s < P.nb, A.backward s bcb (gr s) (gv s) (g s) = .ok (some (b s)) ∧
      A.backward s bcb (gr' s) (gv' s) (g' s) = .ok (some (b' s)) ∧
      A.backward s bcb (fun i t => gr s i t + a * gr' s i t) (fun k i t => gv s k i t + a * gv' s k i t)
        ((g s).comb 1 a (g' s)) = .ok (some (q s))) ∧
      A.rhoGrad P q j c = A.rhoGrad P b j c + a * A.rhoGrad P b' j c := by
  obtain ⟨b, b', q, h1, h2⟩ := h.linear bcb a gr gr' gv gv' g g' 0 1 j c hK (.inl hB) (.inl rfl) (.inr ⟨hj, hc⟩)
  exact ⟨b, b', q, h1, by linarith⟩

theorem exG_exact : Exact exG exGP 1 where
  plan := plan_ok.2 exG_good
  pre := exU_pre .none
  maxVel := by simp [exG, exO1, exO]
  ratio := rfl
  interval := rfl
  pml := .inl (by norm_num [exGP, exPl1, exPl])
  freq := rfl
  nb := by norm_num [exGP, exPl1, exPl]
  loc := fun s hs l hl => Born.exLoc_whole hs (exU_locs .none l hl)
  last := fun s _ k => .inl (by fin_cases k <;> norm_num [exGP, exPl1, exPl, Plan.w1])
  big := fun k => by fin_cases k <;> decide +kernel
  rfmax := by norm_num [exG, exU]
  smooth := fun s _ => exRho_mean exGP s fun k => by fin_cases k <;> decide +kernel

/-- The gradients of the last pressure samples, of a sum over all velocity samples, and of both together. -/
example : ∃ b b' q : ℕ → UGrad 2,
    exG.backward 1 false (fun _ t => (if t = 4 then 1 else 0) + 3 * 0) (fun _ _ t => 0 + 3 * t)
      ((noWf 2).comb 1 3 (noWf 2)) = .ok (some (q 1)) ∧
    exG.rhoGrad exGP q 0 ![3, 3] = exG.rhoGrad exGP b 0 ![3, 3] + 3 * exG.rhoGrad exGP b' 0 ![3, 3] := by
  obtain ⟨b, b', q, h1, h2⟩ := C141_acoustic_density exG_exact false 3 (fun _ _ t => if t = 4 then 1 else 0) (fun _ _ _ => 0)
    (fun _ _ _ _ => 0) (fun _ _ _ t => t) (fun _ => noWf 2) (fun _ => noWf 2) rfl rfl 0 one_pos ![3, 3]
    (fun k => by fin_cases k <;> decide)
  exact ⟨b, b', q, (h1 1 (by norm_num [exGP, exPl1, exPl])).2.2, h2⟩

/-- Three internal steps per sample. -/
example : ∃ b b' q : UGrad 2,
    (exU .none).backward 1 true (fun _ t => (if t = 4 then 1 else 0) + 3 * 0) (fun _ _ t => 0 + 3 * t)
      ((noWf 2).comb 1 3 (noWf 2)) = .ok (some q) ∧
    q.ampV 1 0 1 = b.ampV 1 0 1 + 3 * b'.ampV 1 0 1 := by
  obtain ⟨b, b', q, -, -, h1, -, h2, -⟩ := C141_acoustic_sources (exU .none) (exP ![(0, 7), (0, 9)]) 1 1
    ⟨exU_whole, exU_pre .none, by norm_num [exP, exPl], .inl (by norm_num [exP, exPl]),
      fun l hl => Born.exLoc_whole (by norm_num) (exU_locs .none l hl),
      fun k => .inl (by fin_cases k <;> norm_num [exP, exPl, Plan.w1]), rfl, by norm_num [exP, exPl],
      .inr (.inl (by norm_num [exP, exPl]))⟩
    (fun k => by fin_cases k <;> decide +kernel) true 3 (fun _ t => if t = 4 then 1 else 0) (fun _ _ => 0)
    (fun _ _ _ => 0) (fun _ _ t => t) (noWf 2) (noWf 2) (.inl (by norm_num [exP, exPl]))
  exact ⟨b, b', q, h1, h2 1 _ rfl 0 (by norm_num [Setup.exAmp]) 1 (by norm_num [Setup.exAmp])⟩

end Dw.Acoustic

namespace Dw.Elastic

open Setup Resample Scalar

variable {d : ℕ}

theorem Wavefields.inner_comb (S : Finset (Cell d)) (a : ℝ) (x w w' : Wavefields d ℝ) :
    x.inner S (w.comb 1 a w') = x.inner S w + a * x.inner S w' := by
  unfold Wavefields.inner Wavefields.comb
  simp only [mul_add, one_mul, Finset.sum_add_distrib, Finset.mul_sum, mul_left_comm _ a]
  ring

theorem UShot.pair_comb (r : UShot d) (A : UArgs d) (S : Finset (Cell d)) (a : ℝ) (gr gr' : ℕ → ℕ → ℝ)
    (gv gv' : Fin d → ℕ → ℕ → ℝ) (g g' : Wavefields d ℝ) :
    r.pair A S (fun i t => gr i t + a * gr' i t) (fun k i t => gv k i t + a * gv' k i t) (g.comb 1 a g') =
      r.pair A S gr gv g + a * r.pair A S gr' gv' g' := by
  unfold UShot.pair
  simp only [tracePair_comb, Wavefields.inner_comb, Finset.sum_add_distrib, ← Finset.mul_sum]
  ring

theorem givenOf_noWf (w : UWf d) (S : Finset (Cell d)) (y : Wavefields d ℝ) : (w.givenOf (noWf d)).inner S y = 0 := by
  simp [UWf.givenOf, noWf, Wavefields.inner]

/-- **C141** Gradients of source amplitudes and initial wavefields of `elastic`. -/
theorem C141_elastic_sources (A : UArgs d) (P : Plan d) (s : ℕ) (cf : ℤ) (h : Fwd A P s cf)
    (hbig : ∀ k, (P.acc.pad : ℤ) + 1 ≤ (P.ext k).2 - (P.ext k).1 + P.w1 k) (bcb : Bool) (a : ℝ)
    (gr gr' : ℕ → ℕ → ℝ) (gv gv' : Fin d → ℕ → ℕ → ℝ) (g g' : Wavefields d ℝ)
    (hnt : P.ratio * P.interval ≤ P.nt ∨ P.nt ≤ 0) :
    ∃ b b' x : UGrad d, A.backward s bcb gr gv g = .ok (some b) ∧ A.backward s bcb gr' gv' g' = .ok (some b') ∧
      A.backward s bcb (fun i t => gr i t + a * gr' i t) (fun k i t => gv k i t + a * gv' k i t) (g.comb 1 a g') =
        .ok (some x) ∧
      (∀ q, A.ampP = some q → ∀ i < q.n, ∀ t < q.nt, x.ampP i t = b.ampP i t + a * b'.ampP i t) ∧
      (∀ k q, A.ampV k = some q → ∀ i < q.n, ∀ t < q.nt, x.ampV k i t = b.ampV k i t + a * b'.ampV k i t) ∧
      ∀ w, (A.wf.givenOf w).inner (outCells P) x.wf =
        (A.wf.givenOf w).inner (outCells P) b.wf + a * (A.wf.givenOf w).inner (outCells P) b'.wf := by
  have key : ∀ D : UDir d, D.lam = (fun _ _ => 0) → D.mu = (fun _ _ => 0) → D.buoyancy = (fun _ _ => 0) → ∃ b b' x : UGrad d, A.backward s bcb gr gv g = .ok (some b) ∧
      A.backward s bcb gr' gv' g' = .ok (some b') ∧
      A.backward s bcb (fun i t => gr i t + a * gr' i t) (fun k i t => gv k i t + a * gv' k i t) (g.comb 1 a g') =
        .ok (some x) ∧
      ampPair A.ampP (D.ampP s) x.ampP + ∑ k, ampPair (A.ampV k) (D.ampV k s) (x.ampV k) +
          (A.wf.givenOf (D.wf s)).inner (outCells P) x.wf =
        ampPair A.ampP (D.ampP s) b.ampP + ∑ k, ampPair (A.ampV k) (D.ampV k s) (b.ampV k) +
          (A.wf.givenOf (D.wf s)).inner (outCells P) b.wf +
        a * (ampPair A.ampP (D.ampP s) b'.ampP + ∑ k, ampPair (A.ampV k) (D.ampV k s) (b'.ampV k) +
          (A.wf.givenOf (D.wf s)).inner (outCells P) b'.wf) := fun D h1 h2 h3 => by
    obtain ⟨u, b, hu, hb, e1⟩ := C101_elastic_source_gradients A P cf (plan_ok.2 h.good) h.pre h.interval h.pml h.freq hnt s
      h.lt h.loc h.last hbig bcb gr gv g D h1 h2 h3
    obtain ⟨u', b', hu', hb', e2⟩ := C101_elastic_source_gradients A P cf (plan_ok.2 h.good) h.pre h.interval h.pml h.freq
      hnt s h.lt h.loc h.last hbig bcb gr' gv' g' D h1 h2 h3
    obtain ⟨y, x, hy, hx, e3⟩ := C101_elastic_source_gradients A P cf (plan_ok.2 h.good) h.pre h.interval h.pml h.freq hnt s
      h.lt h.loc h.last hbig bcb (fun i t => gr i t + a * gr' i t) (fun k i t => gv k i t + a * gv' k i t) (g.comb 1 a g') D h1 h2 h3
    obtain rfl : u = u' := funext fun e => Option.some.inj (Except.ok.inj ((hu e).symm.trans (hu' e)))
    obtain rfl : u = y := funext fun e => Option.some.inj (Except.ok.inj ((hu e).symm.trans (hy e)))
    refine ⟨b, b', x, hb, hb', hx, ?_⟩
    have e1 := e1 1
    have e2 := e2 1
    have e3 := e3 1
    rw [UShot.pair_comb, UShot.pair_comb] at e3
    linear_combination e1 + a * e2 - e3
  obtain ⟨b, b', x, hb, hb', hx, -⟩ := key ⟨fun _ _ => 0, fun _ _ => 0, fun _ _ => 0, fun _ _ _ => 0, fun _ _ _ _ => 0, fun _ => noWf d⟩ rfl rfl rfl
  have key : ∀ D : UDir d, D.lam = (fun _ _ => 0) → D.mu = (fun _ _ => 0) → D.buoyancy = (fun _ _ => 0) →
      ampPair A.ampP (D.ampP s) x.ampP + ∑ k, ampPair (A.ampV k) (D.ampV k s) (x.ampV k) +
          (A.wf.givenOf (D.wf s)).inner (outCells P) x.wf =
        ampPair A.ampP (D.ampP s) b.ampP + ∑ k, ampPair (A.ampV k) (D.ampV k s) (b.ampV k) +
          (A.wf.givenOf (D.wf s)).inner (outCells P) b.wf +
        a * (ampPair A.ampP (D.ampP s) b'.ampP + ∑ k, ampPair (A.ampV k) (D.ampV k s) (b'.ampV k) +
          (A.wf.givenOf (D.wf s)).inner (outCells P) b'.wf) := fun D h1 h2 h3 => by
    obtain ⟨b1, b2, b3, x1, x2, x3, e⟩ := key D h1 h2 h3
    obtain rfl := Option.some.inj (Except.ok.inj (hb.symm.trans x1))
    obtain rfl := Option.some.inj (Except.ok.inj (hb'.symm.trans x2))
    obtain rfl := Option.some.inj (Except.ok.inj (hx.symm.trans x3))
    exact e
  refine ⟨b, b', x, hb, hb', hx, fun q hq i hi t ht => ?_, fun k q hq i hi t ht => ?_, fun w => ?_⟩
  · have e := key ⟨fun _ _ => 0, fun _ _ => 0, fun _ _ => 0, ampBump s i t, fun _ _ _ _ => 0, fun _ => noWf d⟩ rfl rfl rfl
    have e3 : ∀ y, ampPair A.ampP (ampBump s i t s) y = y i t := fun y =>
      ampPair_bump A.ampP s y (by rw [hq]; rfl) (by rw [hq]; rfl) hi ht
    simp only [givenOf_noWf, ampPair_zero, Finset.sum_const_zero, add_zero, e3] at e
    exact e
  · have e := key ⟨fun _ _ => 0, fun _ _ => 0, fun _ _ => 0, fun _ _ _ => 0, fun k' => if k' = k then ampBump s i t else fun _ _ _ => 0, fun _ => noWf d⟩ rfl rfl rfl
    have e3 : ∀ y : Fin d → ℕ → ℕ → ℝ, ∑ k', ampPair (A.ampV k') ((if k' = k then ampBump s i t else fun _ _ _ => 0) s) (y k') =
        y k i t := fun y => by
      rw [Finset.sum_eq_single k (fun k' _ hk => by rw [if_neg hk, ampPair_zero]) (fun hk => absurd (Finset.mem_univ _) hk),
        if_pos rfl]
      exact ampPair_bump (A.ampV k) s (y k) (by rw [hq]; rfl) (by rw [hq]; rfl) hi ht
    simp only [givenOf_noWf, ampPair_zero, e3, add_zero, zero_add] at e
    exact e
  · have e := key ⟨fun _ _ => 0, fun _ _ => 0, fun _ _ => 0, fun _ _ _ => 0, fun _ _ _ _ => 0, fun _ => w⟩ rfl rfl rfl
    simp only [ampPair_zero, Finset.sum_const_zero, zero_add] at e
    exact e

/-- The hypotheses of C100. -/
structure Exact (A : UArgs d) (P : Plan d) (cf : ℤ) : Prop where
  plan : A.setup.plan = .ok P
  pre : ¬A.Pre
  maxVel : A.opts.maxVel ≠ none
  ratio : P.ratio = 1
  interval : P.interval = 1
  pml : PmlOk P
  freq : checkCallbackFrequency A.opts.callbackFreq = .ok cf
  nb : 0 < P.nb
  loc : ∀ s < P.nb, ∀ l, some l ∈ A.setup.srcs ++ A.setup.rcvs → WholeIgnored d l s
  last : ∀ s < P.nb, ∀ k, 0 < P.w1 k ∨ (P.ext k).2 = A.lam.shape k ∨ P.BeforeLast k s (A.srcV k) ∧ P.BeforeLast k s (A.rcvV k)
  big : ∀ k, (P.acc.pad : ℤ) + 1 ≤ (P.ext k).2 - (P.ext k).1 + P.w1 k
  smooth : ∀ s < P.nb, Smooth A P s

theorem Exact.linear {A : UArgs d} {P : Plan d} {cf : ℤ} (h : Exact A P cf) (bcb : Bool) (a : ℝ) (gr gr' : ℕ → ℕ → ℕ → ℝ)
    (gv gv' : ℕ → Fin d → ℕ → ℕ → ℝ) (g g' : ℕ → Wavefields d ℝ) (x y z : ℝ) (j : ℕ) (c : Cell d)
    (hL : A.gradL = true ∨ x = 0) (hM : A.gradM = true ∨ y = 0) (hB : A.gradB = true ∨ z = 0)
    (hx : x = 0 ∨ j < A.lam.nb.getD 1 ∧ InShape A.lam.shape c)
    (hy : y = 0 ∨ j < A.mu.nb.getD 1 ∧ InShape A.mu.shape c)
    (hz : z = 0 ∨ j < A.buoyancy.nb.getD 1 ∧ InShape A.buoyancy.shape c) :
    ∃ b b' q, (∀ s < P.nb, A.backward s bcb (gr s) (gv s) (g s) = .ok (some (b s)) ∧
      A.backward s bcb (gr' s) (gv' s) (g' s) = .ok (some (b' s)) ∧
      A.backward s bcb (fun i t => gr s i t + a * gr' s i t) (fun k i t => gv s k i t + a * gv' s k i t)
        ((g s).comb 1 a (g' s)) = .ok (some (q s))) ∧
      x * A.lamGrad P q j c + y * A.muGrad P q j c + z * A.buoyancyGrad P q j c =
        x * A.lamGrad P b j c + y * A.muGrad P b j c + z * A.buoyancyGrad P b j c + a * (x * A.lamGrad P b' j c + y * A.muGrad P b' j c + z * A.buoyancyGrad P b' j c) := by
  have b0 : (bump 0 j c : ℕ → Fld d ℝ) = fun _ _ => 0 := by
    funext j' c'
    simp [bump]
  let D : UDir d := ⟨bump x j c, bump y j c, bump z j c, fun _ _ _ => 0, fun _ _ _ _ => 0, fun _ => noWf d⟩
  obtain ⟨u, b, hu, hb, e1⟩ := C100_elastic_gradients_exact A P cf h.plan h.pre h.maxVel h.ratio h.interval h.pml h.freq h.nb
    h.loc h.last h.big h.smooth bcb gr gv g D 
    (hL.imp id fun h0 => by simp only [D]; rw [h0, b0]) (hM.imp id fun h0 => by simp only [D]; rw [h0, b0]) (hB.imp id fun h0 => by simp only [D]; rw [h0, b0])
  obtain ⟨u', b', hu', hb', e2⟩ := C100_elastic_gradients_exact A P cf h.plan h.pre h.maxVel h.ratio h.interval h.pml h.freq h.nb
    h.loc h.last h.big h.smooth bcb gr' gv' g' D 
    (hL.imp id fun h0 => by simp only [D]; rw [h0, b0]) (hM.imp id fun h0 => by simp only [D]; rw [h0, b0]) (hB.imp id fun h0 => by simp only [D]; rw [h0, b0])
  obtain ⟨u'', q, hy', hq, e3⟩ := C100_elastic_gradients_exact A P cf h.plan h.pre h.maxVel h.ratio h.interval h.pml h.freq h.nb
    h.loc h.last h.big h.smooth bcb
    (fun s i t => gr s i t + a * gr' s i t) (fun s k i t => gv s k i t + a * gv' s k i t) (fun s => (g s).comb 1 a (g' s)) D 
    (hL.imp id fun h0 => by simp only [D]; rw [h0, b0]) (hM.imp id fun h0 => by simp only [D]; rw [h0, b0]) (hB.imp id fun h0 => by simp only [D]; rw [h0, b0])
  refine ⟨b, b', q, fun s hs => ⟨hb s hs, hb' s hs, hq s hs⟩, ?_⟩
  have e4 := e3.unique (((e1.add (e2.const_mul a))).congr_of_eventuallyEq (Filter.Eventually.of_forall fun e => by
    show _ = ∑ s ∈ Finset.range P.nb, _ + a * ∑ s ∈ Finset.range P.nb, _
    rw [Finset.mul_sum, ← Finset.sum_add_distrib]
    refine Finset.sum_congr rfl fun s hs => ?_
    have hs := Finset.mem_range.1 hs
    rw [Option.some.inj (Except.ok.inj ((hu' e s hs).symm.trans (hu e s hs))),
      Option.some.inj (Except.ok.inj ((hy' e s hs).symm.trans (hu e s hs))), UShot.pair_comb]))
  have sum : ∀ (x : ℝ) (m : ModelT d ℝ) (g : ℕ → Fld d ℝ), (x = 0 ∨ j < m.nb.getD 1 ∧ InShape m.shape c) →
      ∑ i ∈ Finset.range (m.nb.getD 1), ∑ c' ∈ box (fun _ => 0) m.shape, bump x j c i c' * g i c' = x * g j c := by
    intro x m g hx
    rcases hx with rfl | hx
    · simp [b0]
    · exact bump_sum x hx.1 (mem_box.2 hx.2) g
  simp only [D, givenOf_noWf, ampPair_zero, Finset.sum_const_zero, add_zero, sum x A.lam _ hx, sum y A.mu _ hy, sum z A.buoyancy _ hz] at e4
  exact e4

/-- **C141** for the gradient of `lambda`. -/
theorem C141_elastic_lambda {A : UArgs d} {P : Plan d} {cf : ℤ} (h : Exact A P cf) (bcb : Bool) (a : ℝ) (gr gr' : ℕ → ℕ → ℕ → ℝ)
    (gv gv' : ℕ → Fin d → ℕ → ℕ → ℝ) (g g' : ℕ → Wavefields d ℝ) (hg : A.gradL = true)
    (j : ℕ) (hj : j < A.lam.nb.getD 1) (c : Cell d) (hc : InShape A.lam.shape c) :
    ∃ b b' q, (∀ s < P.nb, A.backward s bcb (gr s) (gv s) (g s) = .ok (some (b s)) ∧
      A.backward s bcb (gr' s) (gv' s) (g' s) = .ok (some (b' s)) ∧
      A.backward s bcb (fun i t => gr s i t + a * gr' s i t) (fun k i t => gv s k i t + a * gv' s k i t)
        ((g s).comb 1 a (g' s)) = .ok (some (q s))) ∧
      A.lamGrad P q j c = A.lamGrad P b j c + a * A.lamGrad P b' j c := by
  obtain ⟨b, b', q, h1, h2⟩ := h.linear bcb a gr gr' gv gv' g g' 1 0 0 j c (.inl hg) (.inr rfl) (.inr rfl) (.inr ⟨hj, hc⟩) (.inl rfl) (.inl rfl)
  exact ⟨b, b', q, h1, by linarith⟩

/-- **C141** for the gradient of `mu`. -/
theorem C141_elastic_mu {A : UArgs d} {P : Plan d} {cf : ℤ} (h : Exact A P cf) (bcb : Bool) (a : ℝ) (gr gr' : ℕ → ℕ → ℕ → ℝ)
    (gv gv' : ℕ → Fin d → ℕ → ℕ → ℝ) (g g' : ℕ → Wavefields d ℝ) (hg : A.gradM = true)
    (j : ℕ) (hj : j < A.mu.nb.getD 1) (c : Cell d) (hc : InShape A.mu.shape c) :
    ∃ b b' q, (∀ s < P.nb, A.backward s bcb (gr s) (gv s) (g s) = .ok (some (b s)) ∧
      A.backward s bcb (gr' s) (gv' s) (g' s) = .ok (some (b' s)) ∧
      A.backward s bcb (fun i t => gr s i t + a * gr' s i t) (fun k i t => gv s k i t + a * gv' s k i t)
        ((g s).comb 1 a (g' s)) = .ok (some (q s))) ∧
      A.muGrad P q j c = A.muGrad P b j c + a * A.muGrad P b' j c := by
  obtain ⟨b, b', q, h1, h2⟩ := h.linear bcb a gr gr' gv gv' g g' 0 1 0 j c (.inr rfl) (.inl hg) (.inr rfl) (.inl rfl) (.inr ⟨hj, hc⟩) (.inl rfl)
  exact ⟨b, b', q, h1, by linarith⟩

/-- **C141** for the gradient of `buoyancy`. -/
theorem C141_elastic_buoyancy {A : UArgs d} {P : Plan d} {cf : ℤ} (h : Exact A P cf) (bcb : Bool) (a : ℝ) (gr gr' : ℕ → ℕ → ℕ → ℝ)
    (gv gv' : ℕ → Fin d → ℕ → ℕ → ℝ) (g g' : ℕ → Wavefields d ℝ) (hg : A.gradB = true)
    (j : ℕ) (hj : j < A.buoyancy.nb.getD 1) (c : Cell d) (hc : InShape A.buoyancy.shape c) :
    ∃ b b' q, (∀ s < P.nb, A.backward s bcb (gr s) (gv s) (g s) = .ok (some (b s)) ∧
      A.backward s bcb (gr' s) (gv' s) (g' s) = .ok (some (b' s)) ∧
      A.backward s bcb (fun i t => gr s i t + a * gr' s i t) (fun k i t => gv s k i t + a * gv' s k i t)
        ((g s).comb 1 a (g' s)) = .ok (some (q s))) ∧
      A.buoyancyGrad P q j c = A.buoyancyGrad P b j c + a * A.buoyancyGrad P b' j c := by
  obtain ⟨b, b', q, h1, h2⟩ := h.linear bcb a gr gr' gv gv' g g' 0 0 1 j c (.inr rfl) (.inr rfl) (.inl hg) (.inl rfl) (.inl rfl) (.inr ⟨hj, hc⟩)
  exact ⟨b, b', q, h1, by linarith⟩

theorem exG_exact : Exact exG exGP 1 where
  plan := plan_ok.2 exG_good
  pre := exU_pre .none
  maxVel := by simp [exG, exO1, exO]
  ratio := rfl
  interval := rfl
  pml := .inl (by norm_num [exGP, exPl1, exPl])
  freq := rfl
  nb := by norm_num [exGP, exPl1, exPl]
  loc := fun s hs l hl => Born.exLoc_whole hs (exU_locs .none l hl)
  last := fun s _ k => .inl (by fin_cases k <;> norm_num [exGP, exPl1, exPl, Plan.w1])
  big := fun k => by fin_cases k <;> decide +kernel
  smooth := fun s _ => exSmooth exGP s fun k => by fin_cases k <;> decide +kernel

/-- The gradients of the last pressure samples, of a sum over all velocity samples, and of both together. -/
example : ∃ b b' q : ℕ → UGrad 2,
    exG.backward 1 false (fun _ t => (if t = 4 then 1 else 0) + 3 * 0) (fun _ _ t => 0 + 3 * t)
      ((noWf 2).comb 1 3 (noWf 2)) = .ok (some (q 1)) ∧
    exG.buoyancyGrad exGP q 0 ![3, 3] = exG.buoyancyGrad exGP b 0 ![3, 3] + 3 * exG.buoyancyGrad exGP b' 0 ![3, 3] := by
  obtain ⟨b, b', q, h1, h2⟩ := C141_elastic_buoyancy exG_exact false 3 (fun _ _ t => if t = 4 then 1 else 0) (fun _ _ _ => 0)
    (fun _ _ _ _ => 0) (fun _ _ _ t => t) (fun _ => noWf 2) (fun _ => noWf 2) rfl 0 one_pos ![3, 3]
    (fun k => by fin_cases k <;> decide)
  exact ⟨b, b', q, (h1 1 (by norm_num [exGP, exPl1, exPl])).2.2, h2⟩

/-- Three internal steps per sample. -/
example : ∃ b b' q : UGrad 2,
    (exU .none).backward 1 true (fun _ t => (if t = 4 then 1 else 0) + 3 * 0) (fun _ _ t => 0 + 3 * t)
      ((noWf 2).comb 1 3 (noWf 2)) = .ok (some q) ∧
    q.ampV 1 0 1 = b.ampV 1 0 1 + 3 * b'.ampV 1 0 1 := by
  obtain ⟨b, b', q, -, -, h1, -, h2, -⟩ := C141_elastic_sources (exU .none) (exP ![(0, 7), (0, 9)]) 1 1
    ⟨exU_whole, exU_pre .none, by norm_num [exP, exPl], .inl (by norm_num [exP, exPl]),
      fun l hl => Born.exLoc_whole (by norm_num) (exU_locs .none l hl),
      fun k => .inl (by fin_cases k <;> norm_num [exP, exPl, Plan.w1]), rfl, by norm_num [exP, exPl],
      .inr (.inl (by norm_num [exP, exPl]))⟩
    (fun k => by fin_cases k <;> decide +kernel) true 3 (fun _ t => if t = 4 then 1 else 0) (fun _ _ => 0)
    (fun _ _ _ => 0) (fun _ _ t => t) (noWf 2) (noWf 2) (.inl (by norm_num [exP, exPl]))
  exact ⟨b, b', q, h1, h2 1 _ rfl 0 (by norm_num [Setup.exAmp]) 1 (by norm_num [Setup.exAmp])⟩

end Dw.Elastic
