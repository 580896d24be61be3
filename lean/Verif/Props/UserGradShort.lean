import Verif.Props.UserGradCausal

/-!
# C144: gradients of models only depend on source samples before the last used sample of the traces
-/

namespace Dw.Setup

open Scalar Resample

variable {d : ℕ}

/-- The pairing only sees samples with nonzero gradients, also of traces of other lengths. -/
theorem tracePair_short {n T : ℕ} {gr : ℕ → ℕ → ℝ} {x x' : ℕ → Sig ℝ} (hT : ∀ i t, T < t → gr i t = 0)
    (hl : ∀ i < n, T < (x i).len) (hl' : ∀ i < n, T < (x' i).len) (h : ∀ i < n, ∀ t ≤ T, (x' i).val t = (x i).val t) :
    tracePair n gr x' = tracePair n gr x := by
  have cut : ∀ y : ℕ → Sig ℝ, (∀ i < n, T < (y i).len) → tracePair n gr y =
      ∑ i ∈ Finset.range n, ∑ t ∈ Finset.range (T + 1), gr i t * (y i).val t := fun y hy =>
    Finset.sum_congr rfl fun i hi => (Finset.sum_subset (Finset.range_subset_range.2 (hy i (Finset.mem_range.1 hi)))
      fun t _ ht => by rw [hT i t (by simpa using ht), zero_mul]).symm
  rw [cut x hl, cut x' hl']
  exact Finset.sum_congr rfl fun i hi => Finset.sum_congr rfl fun t ht => by
    rw [h i (Finset.mem_range.1 hi) t (Nat.lt_succ_iff.1 (Finset.mem_range.1 ht))]

theorem steps_whole {P : Plan d} (h1 : P.ratio = 1) (h2 : P.interval = 1) : P.steps = P.nt.toNat := by
  unfold Plan.steps
  rw [h1, h2]
  simp

end Dw.Setup

namespace Dw.Scalar

open Setup Resample

variable {d : ℕ}

/-- **C144** If the given gradients of the traces are zero after sample `T`, the gradient of the velocity is the same for all
calls of `scalar` with the same source samples before `T`, whatever the later ones and the number of samples. -/
theorem C144_scalar_velocity (A : UArgs d) (P : Plan d) (cf : ℤ) (h : A.setup.plan = .ok P)
    (hmv : A.maxVel ≠ none) (hg : A.grad = true) (hr : P.ratio = 1) (hi : P.interval = 1) (hP : PmlOk P)
    (hcf : checkCallbackFrequency A.callbackFreq = .ok cf) (hnb : 0 < P.nb)
    (hsrc : ∀ s < P.nb, ∀ l, A.src = some l → WholeIgnored d l s)
    (hrcv : ∀ s < P.nb, ∀ l, A.rcv = some l → WholeIgnored d l s)
    (bcb : Bool) (gr : ℕ → ℕ → ℕ → ℝ) (T n : ℕ) (hT : ∀ s i t, T < t → gr s i t = 0) (hTP : T < P.nt) (hTn : T < n)
    (amps : Option AmpT) (o : Option PyNum) (ha : ∀ s < P.nb, Option.Rel (AmpT.Until s n T) A.amps amps)
    (ho : o = some (.int n) ∨ o = none ∧ amps ≠ none)
    (j : ℕ) (hj : j < A.v.nb.getD 1) (c : Cell d) (hc : InShape A.v.shape c) :
    ∃ b b', (∀ s < P.nb, A.backward s bcb (gr s) (Wavefields.zero d) = .ok (some (b s)) ∧
      (A.withAmps amps o).backward s bcb (gr s) (Wavefields.zero d) = .ok (some (b' s))) ∧
      (A.withAmps amps o).vGrad { P with nt := n } b' j c = A.vGrad P b j c := by
  have hG := plan_ok.1 h
  have hg' : (A.withAmps amps o).setup.Good { P with nt := n } :=
    good_newAmps hG hr (n := n) (amps := [amps]) (o := o) (.cons (rel_length (ha 0 hnb)) .nil)
      (ho.imp id fun hx => ⟨hx.1, by
        cases ha : amps with
        | none => exact absurd ha hx.2
        | some a => exact ⟨a, List.mem_cons_self⟩⟩)
  let D : UDir d := ⟨bump 1 j c, fun _ _ _ => 0, fun _ => Wavefields.zero d⟩
  obtain ⟨u, b, hu, hb, hd⟩ := C94_gradients_exact A P cf h hmv hg hr hi hP hcf hnb hsrc hrcv bcb gr (fun _ => Wavefields.zero d) D
  obtain ⟨u', b', hu', hb', hd'⟩ := C94_gradients_exact (A.withAmps amps o) { P with nt := n } cf (plan_ok.2 hg') hmv hg hr hi hP hcf
    hnb hsrc hrcv bcb gr (fun _ => Wavefields.zero d) D
  refine ⟨b, b', fun s hs => ⟨hb s hs, hb' s hs⟩, ?_⟩
  have key : ∀ e, ∀ s < P.nb, (u' e s).pair (A.withAmps amps o).nRcv (outCells { P with nt := n }) (gr s) (Wavefields.zero d) =
      (u e s).pair A.nRcv (outCells P) (gr s) (Wavefields.zero d) := fun e s hs => by
    have hF : Fwd (A.plus e D) (A.planPlus P e D) s cf := ⟨plus_good hG hnb hmv e D, hs, hP, hsrc s hs, hrcv s hs, hcf,
      by show 0 < P.interval; omega, .inr (by show P.ratio * P.interval ≤ P.nt ∨ P.nt ≤ 0; rw [hr, hi]; omega)⟩
    have hF' : Fwd ((A.withAmps amps o).plus e D) ((A.withAmps amps o).planPlus { P with nt := n } e D) s cf :=
      ⟨plus_good hg' hnb hmv e D, hs, hP, hsrc s hs, hrcv s hs, hcf, by show 0 < P.interval; omega,
        .inr (by show P.ratio * P.interval ≤ n ∨ (n : ℤ) ≤ 0; rw [hr, hi]; omega)⟩
    have ea : (A.plus e D).amps = A.amps := map_plus_zero e A.amps
    have e1 : (A.withAmps amps o).plus e D = (A.plus e D).withAmps amps o := by
      have : (amps.map fun a => plusAmp e a fun _ _ _ => 0) = amps := map_plus_zero e amps
      simp only [UArgs.plus, UArgs.withAmps, D, this]
    obtain ⟨r, r', hc, hc', ht⟩ := C124_causal (A.plus e D) (A.planPlus P e D) s cf hF hr n T amps o (by rw [ea]; exact ha s hs) ho
      (.inr (.inl (by show P.interval ≤ n; omega)))
    obtain ⟨q, u1, psi1, zeta1, hq, -, -, -, hl⟩ := C90_scalar_scheme _ _ s cf (plan_ok.2 hF.good) hF.lt hF.pml hF.src hF.rcv
      hF.freq hF.interval hF.nt
    obtain ⟨q', u2, psi2, zeta2, hq', -, -, -, hl'⟩ := C90_scalar_scheme _ _ s cf (plan_ok.2 hF'.good) hF'.lt hF'.pml hF'.src hF'.rcv
      hF'.freq hF'.interval hF'.nt
    obtain rfl : r = q := Option.some.inj (Except.ok.inj (hc.symm.trans hq))
    obtain rfl : u e s = r := Option.some.inj (Except.ok.inj ((hu e s hs).symm.trans hc))
    rw [e1] at hq'
    obtain rfl : r' = q' := Option.some.inj (Except.ok.inj (hc'.symm.trans hq'))
    have hu1 := hu' e s hs
    rw [e1] at hu1
    obtain rfl : u' e s = r' := Option.some.inj (Except.ok.inj (hu1.symm.trans hc'))
    have iz : ∀ x : Wavefields d ℝ, ∀ S, x.inner S (Wavefields.zero d) = 0 := fun x S => by
      simp [Wavefields.inner, Wavefields.zero]
    have hn : A.nRcv = locCount A.rcv := by
      unfold UArgs.nRcv locCount
      cases A.rcv <;> rfl
    have hn' : (A.withAmps amps o).nRcv = locCount A.rcv := hn
    unfold UShot.pair
    rw [iz, iz, add_zero, add_zero, hn, hn']
    refine tracePair_short (T := T) (hT s) (fun i hk => ?_) (fun i hk => ?_) fun i hk t ht0 => ?_
    · have a := hl i hk
      rw [a, downS_one hF.good hr]
      show T < P.nt.toNat
      omega
    · have a := hl' i hk
      rw [a, downS_one hF'.good hr]
      show T < (n : ℤ).toNat
      omega
    · have s1 : (A.planPlus P e D).steps = P.nt.toNat := steps_whole hr hi
      have s2 : Plan.steps { A.planPlus P e D with nt := n } = n := steps_whole hr hi
      exact ht i hk t ht0 (by rw [s1]; omega) (by rw [s2]; omega)
  have e4 := hd'.unique (hd.congr_of_eventuallyEq (Filter.Eventually.of_forall fun e =>
    Finset.sum_congr rfl fun s hs => key e s (Finset.mem_range.1 hs)))
  have hz : ∀ (A : UArgs d) (S : Finset (Cell d)) (b : ℕ → UGrad d), ∑ s ∈ Finset.range P.nb, (A.ampPair (D.amps s) (b s).amps +
      (A.givenOf (D.wf s)).inner S (b s).wf) = 0 := fun A S b => Finset.sum_eq_zero fun s _ => by
    have e2 : A.givenOf (Wavefields.zero d) = Wavefields.zero d := by
      simp [UArgs.givenOf, Wavefields.zero]
    show A.ampPair (fun _ _ => 0) _ + (A.givenOf (Wavefields.zero d)).inner _ _ = 0
    rw [e2, Wavefields.zero_inner, add_zero]
    exact ampPair_zero A.amps _
  rw [hz, hz] at e4
  simp only [D] at e4
  have k1 := bump_sum 1 hj (mem_box.2 hc) ((A.withAmps amps o).vGrad { P with nt := n } b')
  have k2 := bump_sum 1 hj (mem_box.2 hc) (A.vGrad P b)
  rw [k2] at e4
  have e5 := (congrArg (· + 0) k1).symm.trans e4
  linarith

/-- Three samples, and twenty with other values from the third on. -/
example : ∃ b b' : ℕ → UGrad 2, exG.backward 0 false (fun _ t => if t ≤ 2 then 1 + t else 0) (Wavefields.zero 2) = .ok (some (b 0)) ∧
    (exG.withAmps (some ⟨1, 1, 20, fun _ _ t => if t < 2 then 1 + t else 77⟩) none).backward 0 false
      (fun _ t => if t ≤ 2 then 1 + t else 0) (Wavefields.zero 2) = .ok (some (b' 0)) ∧
    (exG.withAmps (some ⟨1, 1, 20, fun _ _ t => if t < 2 then 1 + t else 77⟩) none).vGrad { exGP with nt := 20 } b' 0 ![5, 5] =
      exG.vGrad exGP b 0 ![5, 5] := by
  obtain ⟨b, b', h1, h2⟩ := C144_scalar_velocity exG exGP 1 (plan_ok.2 exG_good) (by simp [exG, exV, exU]) rfl rfl rfl
    (.inl (by norm_num [exGP, exQ])) rfl one_pos (fun s hs => (exV_accepted 3 (.inr rfl) s hs).src)
    (fun s hs => (exV_accepted 3 (.inr rfl) s hs).rcv) false (fun _ _ t => if t ≤ 2 then 1 + t else 0) 2 20
    (fun _ _ t ht => if_neg (by omega)) (by norm_num [exGP, exQ]) (by norm_num)
    (some ⟨1, 1, 20, fun _ _ t => if t < 2 then 1 + t else 77⟩) none
    (fun s _ => .some ⟨⟨rfl, rfl, rfl⟩, fun i _ t ht => if_pos ht⟩) (.inr ⟨rfl, by simp⟩)
    0 one_pos ![5, 5] (fun k => by fin_cases k <;> decide)
  exact ⟨b, b', (h1 0 one_pos).1, (h1 0 one_pos).2, h2⟩

end Dw.Scalar

namespace Dw.Born

open Setup Resample Scalar

variable {d : ℕ}

theorem Exact.withAmps {A : UArgs d} {P : Plan d} {cf : ℤ} (h : Exact A P cf) {n T : ℕ} {amps : Option AmpT} {o : Option PyNum}
    (ha : ∀ s < P.nb, Option.Rel (AmpT.Until s n T) A.amps amps)
    (ho : o = some (.int n) ∨ o = none ∧ amps ≠ none) : Exact (A.withAmps amps o) { P with nt := n } cf :=
  ⟨plan_ok.2 (good_newAmps (plan_ok.1 h.plan) h.ratio (n := n) (amps := [amps, amps]) (o := o)
    (.cons (rel_length (ha 0 h.nb)) (.cons (rel_length (ha 0 h.nb)) .nil)) (ho.imp id fun hx => ⟨hx.1, by
      cases ha : amps with
      | none => exact absurd ha hx.2
      | some a => exact ⟨a, List.mem_cons_self⟩⟩)),
    h.maxVel, h.ratio, h.interval, h.pml, h.freq, h.nb, h.loc⟩

theorem Exact.short {A : UArgs d} {P : Plan d} {cf : ℤ} (h : Exact A P cf) (full bcb : Bool) {gr gs : ℕ → ℕ → ℕ → ℝ}
    {n T : ℕ} {amps : Option AmpT} {o : Option PyNum}
    (ha : ∀ s < P.nb, Option.Rel (AmpT.Until s n T) A.amps amps)
    (ho : o = some (.int n) ∨ o = none ∧ amps ≠ none) (hTP : T < P.nt) (hTn : T < n) (hT : ∀ s i t, T < t → gr s i t = 0)
    (hT' : ∀ s i t, T < t → gs s i t = 0) (x y : ℝ) (j : ℕ) (c : Cell d)
    (hV : A.gradV = true ∨ x = 0) (hS : A.gradS = true ∨ y = 0)
    (hx : x = 0 ∨ j < A.v.nb.getD 1 ∧ InShape A.v.shape c)
    (hy : y = 0 ∨ j < A.scatter.nb.getD 1 ∧ InShape A.scatter.shape c) :
    ∃ b b', (∀ s < P.nb, A.backward s full bcb (gr s) (gs s) (Wavefields.zero d) (Wavefields.zero d) = .ok (some (b s)) ∧
      (A.withAmps amps o).backward s full bcb (gr s) (gs s) (Wavefields.zero d) (Wavefields.zero d) = .ok (some (b' s))) ∧
      x * (A.withAmps amps o).vGrad { P with nt := n } b' j c + y * (A.withAmps amps o).scatterGrad { P with nt := n } b' j c =
        x * A.vGrad P b j c + y * A.scatterGrad P b j c := by
  have b0 : (bump 0 j c : ℕ → Fld d ℝ) = fun _ _ => 0 := by
    funext j' c'
    simp [bump]
  have h' := h.withAmps ha ho
  have hG := plan_ok.1 h.plan
  have hg' := plan_ok.1 h'.plan
  let D : UDir d := ⟨bump x j c, bump y j c, fun _ _ _ => 0, fun _ => Wavefields.zero d, fun _ => Wavefields.zero d⟩
  have k1 : A.gradV = true ∨ D.v = fun _ _ => 0 := hV.imp id fun h0 => by simp only [D]; rw [h0, b0]
  have k2 : A.gradS = true ∨ D.scatter = fun _ _ => 0 := hS.imp id fun h0 => by simp only [D]; rw [h0, b0]
  obtain ⟨u, b, hu, hb, hd⟩ := C96_born_gradients_exact A P cf h.plan h.maxVel h.ratio h.interval h.pml h.freq h.nb
    h.loc full bcb gr gs (fun _ => Wavefields.zero d) (fun _ => Wavefields.zero d) D k1 k2 (.inr ⟨rfl, rfl⟩)
  obtain ⟨u', b', hu', hb', hd'⟩ := C96_born_gradients_exact (A.withAmps amps o) { P with nt := n } cf h'.plan h'.maxVel h'.ratio h'.interval h'.pml h'.freq h'.nb
    h'.loc full bcb gr gs (fun _ => Wavefields.zero d) (fun _ => Wavefields.zero d) D k1 k2 (.inr ⟨rfl, rfl⟩)
  refine ⟨b, b', fun s hs => ⟨hb s hs, hb' s hs⟩, ?_⟩
  have key : ∀ e, ∀ s < P.nb, (u' e s).pair (A.withAmps amps o) (outCells { P with nt := n }) (gr s) (gs s) (Wavefields.zero d) (Wavefields.zero d) =
      (u e s).pair A (outCells P) (gr s) (gs s) (Wavefields.zero d) (Wavefields.zero d) := fun e s hs => by
    have hF : Fwd (A.plus e D) (A.planPlus P e D) s cf := ⟨plus_good hG h.nb h.maxVel e D, hs, h.pml, h.loc s hs, h.freq, by show 0 < P.interval; rw [h.interval]; exact one_pos,
      .inr (by show P.ratio * P.interval ≤ P.nt ∨ P.nt ≤ 0; rw [h.ratio, h.interval]; omega)⟩
    have hF' : Fwd ((A.withAmps amps o).plus e D) ((A.withAmps amps o).planPlus { P with nt := n } e D) s cf :=
      ⟨plus_good hg' h.nb h.maxVel e D, hs, h.pml, h.loc s hs, h.freq, by show 0 < P.interval; rw [h.interval]; exact one_pos,
      .inr (by show P.ratio * P.interval ≤ (n : ℤ) ∨ (n : ℤ) ≤ 0; rw [h.ratio, h.interval]; omega)⟩
    have e1 : (A.withAmps amps o).plus e D = (A.plus e D).withAmps amps o := by
      simp only [UArgs.plus, UArgs.withAmps, D, map_plus_zero]

    obtain ⟨r, r', hc, hc', ht⟩ := C124_born_causal (A.plus e D) (A.planPlus P e D) s cf hF h.ratio n T amps o
      (by simp only [UArgs.plus, D, map_plus_zero]; exact ha s hs) ho (.inr (.inl (by show P.interval ≤ n; rw [h.interval]; omega)))
    obtain ⟨q, u1, psi1, zeta1, w1, ps1, ze1, hq, -, -, -, -, -, -, hl, hm⟩ := C91_born_scheme _ _ s cf (plan_ok.2 hF.good) hF.lt hF.pml hF.loc hF.freq hF.interval hF.nt
    obtain ⟨q', u2, psi2, zeta2, w2, ps2, ze2, hq', -, -, -, -, -, -, hl', hm'⟩ := C91_born_scheme _ _ s cf (plan_ok.2 hF'.good) hF'.lt hF'.pml hF'.loc hF'.freq hF'.interval hF'.nt
    obtain rfl : r = q := Option.some.inj (Except.ok.inj (hc.symm.trans hq))
    obtain rfl : u e s = r := Option.some.inj (Except.ok.inj ((hu e s hs).symm.trans hc))
    rw [e1] at hq'
    obtain rfl : r' = q' := Option.some.inj (Except.ok.inj (hc'.symm.trans hq'))
    have hu1 := hu' e s hs
    rw [e1] at hu1
    obtain rfl : u' e s = r' := Option.some.inj (Except.ok.inj (hu1.symm.trans hc'))
    have s1 : (A.planPlus P e D).steps = P.nt.toNat := steps_whole h.ratio h.interval
    have s2 : Plan.steps { A.planPlus P e D with nt := n } = n := steps_whole h.ratio h.interval
    have iz : ∀ x : Wavefields d ℝ, ∀ S, x.inner S (Wavefields.zero d) = 0 := fun x S => by
      simp [Wavefields.inner, Wavefields.zero]
    unfold UShot.pair
    rw [iz, iz, iz, iz, add_zero, add_zero, add_zero, add_zero]
    refine congrArg₂ (· + ·) (tracePair_short (T := T) (hT s) (fun i hk => ?_) (fun i hk => ?_) fun i hk t ht0 => ?_)
      (tracePair_short (T := T) (hT' s) (fun i hk => ?_) (fun i hk => ?_) fun i hk t ht0 => ?_)
    · have a := hl i hk
      rw [a, downS_one hF.good h.ratio]
      show T < P.nt.toNat
      omega
    · have a := hl' i hk
      rw [a, downS_one hF'.good h.ratio]
      show T < (n : ℤ).toNat
      omega
    · exact (ht t ht0 (by rw [s1]; omega) (by rw [s2]; omega)).1 i hk
    · have a := hm i hk
      rw [a, downS_one hF.good h.ratio]
      show T < P.nt.toNat
      omega
    · have a := hm' i hk
      rw [a, downS_one hF'.good h.ratio]
      show T < (n : ℤ).toNat
      omega
    · exact (ht t ht0 (by rw [s1]; omega) (by rw [s2]; omega)).2 i hk

  have e4 := hd'.unique (hd.congr_of_eventuallyEq (Filter.Eventually.of_forall fun e =>
    Finset.sum_congr rfl fun s hs => key e s (Finset.mem_range.1 hs)))
  have sum : ∀ (x : ℝ) (m : ModelT d ℝ) (g : ℕ → Fld d ℝ), (x = 0 ∨ j < m.nb.getD 1 ∧ InShape m.shape c) →
      ∑ i ∈ Finset.range (m.nb.getD 1), ∑ c' ∈ box (fun _ => 0) m.shape, bump x j c i c' * g i c' = x * g j c := by
    intro x m g hx
    rcases hx with rfl | hx
    · simp [b0]
    · exact bump_sum x hx.1 (mem_box.2 hx.2) g
  simp only [D, givenOf_zero, Wavefields.zero_inner, ampPair_zero, Finset.sum_const_zero, add_zero, sum x A.v _ hx, sum y A.scatter _ hy, sum x (A.withAmps amps o).v _ hx, sum y (A.withAmps amps o).scatter _ hy] at e4
  exact e4

/-- **C144** for the velocity of `scalar_born`. -/
theorem C144_born_velocity {A : UArgs d} {P : Plan d} {cf : ℤ} (h : Exact A P cf) (full bcb : Bool) (gr gs : ℕ → ℕ → ℕ → ℝ)
    (T n : ℕ) (hT : ∀ s i t, T < t → gr s i t = 0) (hT' : ∀ s i t, T < t → gs s i t = 0) (hTP : T < P.nt) (hTn : T < n)
    (amps : Option AmpT) (o : Option PyNum) (ha : ∀ s < P.nb, Option.Rel (AmpT.Until s n T) A.amps amps)
    (ho : o = some (.int n) ∨ o = none ∧ amps ≠ none) (hg : A.gradV = true)
    (j : ℕ) (hj : j < A.v.nb.getD 1) (c : Cell d) (hc : InShape A.v.shape c) :
    ∃ b b', (∀ s < P.nb,
      A.backward s full bcb (gr s) (gs s) (Wavefields.zero d) (Wavefields.zero d) = .ok (some (b s)) ∧
      (A.withAmps amps o).backward s full bcb (gr s) (gs s) (Wavefields.zero d) (Wavefields.zero d) = .ok (some (b' s))) ∧
      (A.withAmps amps o).vGrad { P with nt := n } b' j c = A.vGrad P b j c := by
  obtain ⟨b, b', h1, h2⟩ := h.short full bcb ha ho hTP hTn hT hT' 1 0 j c (.inl hg) (.inr rfl) (.inr ⟨hj, hc⟩) (.inl rfl)
  exact ⟨b, b', h1, by linarith⟩

/-- **C144** for the scattering potential. -/
theorem C144_born_scatter {A : UArgs d} {P : Plan d} {cf : ℤ} (h : Exact A P cf) (full bcb : Bool) (gr gs : ℕ → ℕ → ℕ → ℝ)
    (T n : ℕ) (hT : ∀ s i t, T < t → gr s i t = 0) (hT' : ∀ s i t, T < t → gs s i t = 0) (hTP : T < P.nt) (hTn : T < n)
    (amps : Option AmpT) (o : Option PyNum) (ha : ∀ s < P.nb, Option.Rel (AmpT.Until s n T) A.amps amps)
    (ho : o = some (.int n) ∨ o = none ∧ amps ≠ none) (hg : A.gradS = true)
    (j : ℕ) (hj : j < A.scatter.nb.getD 1) (c : Cell d) (hc : InShape A.scatter.shape c) :
    ∃ b b', (∀ s < P.nb,
      A.backward s full bcb (gr s) (gs s) (Wavefields.zero d) (Wavefields.zero d) = .ok (some (b s)) ∧
      (A.withAmps amps o).backward s full bcb (gr s) (gs s) (Wavefields.zero d) (Wavefields.zero d) = .ok (some (b' s))) ∧
      (A.withAmps amps o).scatterGrad { P with nt := n } b' j c = A.scatterGrad P b j c := by
  obtain ⟨b, b', h1, h2⟩ := h.short full bcb ha ho hTP hTn hT hT' 0 1 j c (.inr rfl) (.inl hg) (.inl rfl) (.inr ⟨hj, hc⟩)
  exact ⟨b, b', h1, by linarith⟩

/-- Five samples, and twenty with other values from the fourth on. -/
example : ∃ b b' : ℕ → UGrad 2,
    (exG false).backward 1 false false (fun _ _ => 0) (fun _ t => if t ≤ 3 then 1 + t else 0) (Wavefields.zero 2)
      (Wavefields.zero 2) = .ok (some (b 1)) ∧
    ((exG false).withAmps (some ⟨2, 2, 20, fun s i t => if t < 3 then Setup.exAmp.val s i t else 77⟩) none).backward 1 false false
      (fun _ _ => 0) (fun _ t => if t ≤ 3 then 1 + t else 0) (Wavefields.zero 2) (Wavefields.zero 2) = .ok (some (b' 1)) ∧
    ((exG false).withAmps (some ⟨2, 2, 20, fun s i t => if t < 3 then Setup.exAmp.val s i t else 77⟩) none).scatterGrad
      { exGP with nt := 20 } b' 0 ![2, 3] = (exG false).scatterGrad exGP b 0 ![2, 3] := by
  obtain ⟨b, b', h1, h2⟩ := C144_born_scatter (exG_exact false) false false (fun _ _ _ => 0)
    (fun _ _ t => if t ≤ 3 then 1 + t else 0) 3 20 (fun _ _ _ _ => rfl) (fun _ _ t ht => if_neg (by omega))
    (by norm_num [exGP, exPl1, exPl]) (by norm_num)
    (some ⟨2, 2, 20, fun s i t => if t < 3 then Setup.exAmp.val s i t else 77⟩) none
    (fun s _ => .some ⟨⟨rfl, rfl, rfl⟩, fun i _ t ht => if_pos ht⟩) (.inr ⟨rfl, by simp⟩) rfl
    0 (by decide) ![2, 3] (fun k => by fin_cases k <;> decide)
  exact ⟨b, b', (h1 1 (by decide)).1, (h1 1 (by decide)).2, h2⟩

end Dw.Born

namespace Dw.Acoustic

open Setup Resample Scalar

variable {d : ℕ}

theorem Exact.withAmps {A : UArgs d} {P : Plan d} {cf : ℤ} (h : Exact A P cf) {n T : ℕ} {ampP : Option AmpT} {ampV : Fin d → Option AmpT} {o : Option PyNum}
    (ha : ∀ s < P.nb, Option.Rel (AmpT.Until s n T) A.ampP ampP) (hv : ∀ s < P.nb, ∀ k, Option.Rel (AmpT.Until s n T) (A.ampV k) (ampV k))
    (ho : o = some (.int n) ∨ o = none ∧ (ampP ≠ none ∨ ∃ k, ampV k ≠ none)) : Exact (A.withAmps ampP ampV o) { P with nt := n } cf :=
  ⟨plan_ok.2 (good_newAmps (plan_ok.1 h.plan) h.ratio (n := n) (amps := ampP :: List.ofFn ampV) (o := o)
    (forall_cons (rel_length (ha 0 h.nb)) fun k => rel_length (hv 0 h.nb k)) (ho.imp id fun hx => ⟨hx.1, by
      rcases hx.2 with hx | ⟨k, hx⟩
      · obtain ⟨a, ha⟩ := Option.ne_none_iff_exists'.1 hx
        exact ⟨a, by simp [ha]⟩
      · obtain ⟨a, ha⟩ := Option.ne_none_iff_exists'.1 hx
        exact ⟨a, List.mem_cons_of_mem _ (List.mem_ofFn.2 ⟨k, ha⟩)⟩⟩)),
    h.pre, h.maxVel, h.ratio, h.interval, h.pml, h.freq, h.nb, h.loc, h.last, h.big, h.rfmax, h.smooth⟩

theorem Exact.short {A : UArgs d} {P : Plan d} {cf : ℤ} (h : Exact A P cf) (bcb : Bool) {grP : ℕ → ℕ → ℕ → ℝ} {grV : ℕ → Fin d → ℕ → ℕ → ℝ}
    {n T : ℕ} {ampP : Option AmpT} {ampV : Fin d → Option AmpT} {o : Option PyNum}
    (ha : ∀ s < P.nb, Option.Rel (AmpT.Until s n T) A.ampP ampP) (hv : ∀ s < P.nb, ∀ k, Option.Rel (AmpT.Until s n T) (A.ampV k) (ampV k))
    (ho : o = some (.int n) ∨ o = none ∧ (ampP ≠ none ∨ ∃ k, ampV k ≠ none)) (hTP : T < P.nt) (hTn : T < n) (hT : ∀ s i t, T < t → grP s i t = 0)
    (hT' : ∀ s k i t, T < t → grV s k i t = 0) (x y : ℝ) (j : ℕ) (c : Cell d)
    (hK : A.gradK = true) (hB : A.gradB = true ∨ y = 0)
    (hx : x = 0 ∨ j < A.v.nb.getD 1 ∧ InShape A.v.shape c)
    (hy : y = 0 ∨ j < A.rho.nb.getD 1 ∧ InShape A.rho.shape c) :
    ∃ b b', (∀ s < P.nb, A.backward s bcb (grP s) (grV s) (noWf d) = .ok (some (b s)) ∧
      (A.withAmps ampP ampV o).backward s bcb (grP s) (grV s) (noWf d) = .ok (some (b' s))) ∧
      x * (A.withAmps ampP ampV o).vGrad { P with nt := n } b' j c + y * (A.withAmps ampP ampV o).rhoGrad { P with nt := n } b' j c =
        x * A.vGrad P b j c + y * A.rhoGrad P b j c := by
  have b0 : (bump 0 j c : ℕ → Fld d ℝ) = fun _ _ => 0 := by
    funext j' c'
    simp [bump]
  have h' := h.withAmps ha hv ho
  have hG := plan_ok.1 h.plan
  have hg' := plan_ok.1 h'.plan
  let D : UDir d := ⟨bump x j c, bump y j c, fun _ _ _ => 0, fun _ _ _ _ => 0, fun _ => noWf d⟩
  have k2 : A.gradB = true ∨ D.rho = fun _ _ => 0 := hB.imp id fun h0 => by simp only [D]; rw [h0, b0]
  obtain ⟨u, b, hu, hb, hd⟩ := C98_acoustic_gradients_exact A P cf h.plan h.pre h.maxVel h.ratio h.interval h.pml h.freq h.nb
    h.loc h.last h.big h.rfmax h.smooth bcb grP grV (fun _ => noWf d) D (.inl hK) k2
  obtain ⟨u', b', hu', hb', hd'⟩ := C98_acoustic_gradients_exact (A.withAmps ampP ampV o) { P with nt := n } cf h'.plan h'.pre h'.maxVel h'.ratio h'.interval h'.pml h'.freq h'.nb
    h'.loc h'.last h'.big h'.rfmax h'.smooth bcb grP grV (fun _ => noWf d) D (.inl hK) k2
  refine ⟨b, b', fun s hs => ⟨hb s hs, hb' s hs⟩, ?_⟩
  have key : ∀ e, ∀ s < P.nb, (u' e s).pair (A.withAmps ampP ampV o) (outCells { P with nt := n }) (grP s) (grV s) (noWf d) =
      (u e s).pair A (outCells P) (grP s) (grV s) (noWf d) := fun e s hs => by
    have hF : Fwd (A.plus e D) (A.planPlus P e D) s cf := ⟨plus_good hG h.nb h.maxVel e D, h.pre, hs, h.pml, h.loc s hs, h.last s hs, h.freq, by show 0 < P.interval; rw [h.interval]; exact one_pos,
      .inr (by show P.ratio * P.interval ≤ P.nt ∨ P.nt ≤ 0; rw [h.ratio, h.interval]; omega)⟩
    have hF' : Fwd ((A.withAmps ampP ampV o).plus e D) ((A.withAmps ampP ampV o).planPlus { P with nt := n } e D) s cf :=
      ⟨plus_good hg' h.nb h.maxVel e D, h.pre, hs, h.pml, h.loc s hs, h.last s hs, h.freq, by show 0 < P.interval; rw [h.interval]; exact one_pos,
      .inr (by show P.ratio * P.interval ≤ (n : ℤ) ∨ (n : ℤ) ≤ 0; rw [h.ratio, h.interval]; omega)⟩
    have e1 : (A.withAmps ampP ampV o).plus e D = (A.plus e D).withAmps ampP ampV o := by
      simp only [UArgs.plus, UArgs.withAmps, D, map_plus_zero]

    obtain ⟨r, r', hc, hc', ht⟩ := C124_acoustic_causal (A.plus e D) (A.planPlus P e D) s cf hF h.ratio n T ampP ampV o
      (by simp only [UArgs.plus, D, map_plus_zero]; exact ha s hs) (by simp only [UArgs.plus, D, map_plus_zero]; exact hv s hs) ho (.inr (.inl (by show P.interval ≤ n; rw [h.interval]; omega)))
    obtain ⟨q, p1, v1, phi1, psi1, hq, -, -, -, hl, hm⟩ := C92_acoustic_scheme _ _ s cf (plan_ok.2 hF.good) hF.pre hF.lt hF.pml hF.loc hF.last hF.freq hF.interval hF.nt
    obtain ⟨q', p2, v2, phi2, psi2, hq', -, -, -, hl', hm'⟩ := C92_acoustic_scheme _ _ s cf (plan_ok.2 hF'.good) hF'.pre hF'.lt hF'.pml hF'.loc hF'.last hF'.freq hF'.interval hF'.nt
    obtain rfl : r = q := Option.some.inj (Except.ok.inj (hc.symm.trans hq))
    obtain rfl : u e s = r := Option.some.inj (Except.ok.inj ((hu e s hs).symm.trans hc))
    rw [e1] at hq'
    obtain rfl : r' = q' := Option.some.inj (Except.ok.inj (hc'.symm.trans hq'))
    have hu1 := hu' e s hs
    rw [e1] at hu1
    obtain rfl : u' e s = r' := Option.some.inj (Except.ok.inj (hu1.symm.trans hc'))
    have s1 : (A.planPlus P e D).steps = P.nt.toNat := steps_whole h.ratio h.interval
    have s2 : Plan.steps { A.planPlus P e D with nt := n } = n := steps_whole h.ratio h.interval
    have iz : ∀ x : Wavefields d ℝ, ∀ S, x.inner S (noWf d) = 0 := fun x S => by
      simp [Wavefields.inner, noWf]
    unfold UShot.pair
    rw [iz, iz, add_zero, add_zero]
    refine congrArg₂ (· + ·) (tracePair_short (T := T) (hT s) (fun i hk => ?_) (fun i hk => ?_) fun i hk t ht0 => ?_)
      (Finset.sum_congr rfl fun k _ => tracePair_short (T := T) (hT' s k) (fun i hk => ?_) (fun i hk => ?_) fun i hk t ht0 => ?_)
    · have a := hl i hk
      rw [a, downS_one hF.good h.ratio]
      show T < P.nt.toNat
      omega
    · have a := hl' i hk
      rw [a, downS_one hF'.good h.ratio]
      show T < (n : ℤ).toNat
      omega
    · exact (ht t ht0 (by rw [s1]; omega) (by rw [s2]; omega)).1 i hk
    · have a := hm k i hk
      rw [a, downS_one hF.good h.ratio]
      show T < P.nt.toNat
      omega
    · have a := hm' k i hk
      rw [a, downS_one hF'.good h.ratio]
      show T < (n : ℤ).toNat
      omega
    · exact (ht t ht0 (by rw [s1]; omega) (by rw [s2]; omega)).2 k i hk

  have e4 := hd'.unique (hd.congr_of_eventuallyEq (Filter.Eventually.of_forall fun e =>
    Finset.sum_congr rfl fun s hs => key e s (Finset.mem_range.1 hs)))
  have sum : ∀ (x : ℝ) (m : ModelT d ℝ) (g : ℕ → Fld d ℝ), (x = 0 ∨ j < m.nb.getD 1 ∧ InShape m.shape c) →
      ∑ i ∈ Finset.range (m.nb.getD 1), ∑ c' ∈ box (fun _ => 0) m.shape, bump x j c i c' * g i c' = x * g j c := by
    intro x m g hx
    rcases hx with rfl | hx
    · simp [b0]
    · exact bump_sum x hx.1 (mem_box.2 hx.2) g
  simp only [D, givenOf_noWf, ampPair_zero, Finset.sum_const_zero, add_zero, sum x A.v _ hx, sum y A.rho _ hy, sum x (A.withAmps ampP ampV o).v _ hx, sum y (A.withAmps ampP ampV o).rho _ hy] at e4
  exact e4

/-- **C144** for the velocity of `acoustic`. -/
theorem C144_acoustic_velocity {A : UArgs d} {P : Plan d} {cf : ℤ} (h : Exact A P cf) (bcb : Bool) (grP : ℕ → ℕ → ℕ → ℝ)
    (grV : ℕ → Fin d → ℕ → ℕ → ℝ) (T n : ℕ) (hT : ∀ s i t, T < t → grP s i t = 0) (hT' : ∀ s k i t, T < t → grV s k i t = 0)
    (hTP : T < P.nt) (hTn : T < n) (ampP : Option AmpT) (ampV : Fin d → Option AmpT) (o : Option PyNum)
    (ha : ∀ s < P.nb, Option.Rel (AmpT.Until s n T) A.ampP ampP)
    (hv : ∀ s < P.nb, ∀ k, Option.Rel (AmpT.Until s n T) (A.ampV k) (ampV k))
    (ho : o = some (.int n) ∨ o = none ∧ (ampP ≠ none ∨ ∃ k, ampV k ≠ none)) (hK : A.gradK = true)
    (j : ℕ) (hj : j < A.v.nb.getD 1) (c : Cell d) (hc : InShape A.v.shape c) :
    ∃ b b', (∀ s < P.nb, A.backward s bcb (grP s) (grV s) (noWf d) = .ok (some (b s)) ∧
      (A.withAmps ampP ampV o).backward s bcb (grP s) (grV s) (noWf d) = .ok (some (b' s))) ∧
      (A.withAmps ampP ampV o).vGrad { P with nt := n } b' j c = A.vGrad P b j c := by
  obtain ⟨b, b', h1, h2⟩ := h.short bcb ha hv ho hTP hTn hT hT' 1 0 j c hK (.inr rfl) (.inr ⟨hj, hc⟩) (.inl rfl)
  exact ⟨b, b', h1, by linarith⟩

/-- **C144** for the density. -/
theorem C144_acoustic_density {A : UArgs d} {P : Plan d} {cf : ℤ} (h : Exact A P cf) (bcb : Bool) (grP : ℕ → ℕ → ℕ → ℝ)
    (grV : ℕ → Fin d → ℕ → ℕ → ℝ) (T n : ℕ) (hT : ∀ s i t, T < t → grP s i t = 0) (hT' : ∀ s k i t, T < t → grV s k i t = 0)
    (hTP : T < P.nt) (hTn : T < n) (ampP : Option AmpT) (ampV : Fin d → Option AmpT) (o : Option PyNum)
    (ha : ∀ s < P.nb, Option.Rel (AmpT.Until s n T) A.ampP ampP)
    (hv : ∀ s < P.nb, ∀ k, Option.Rel (AmpT.Until s n T) (A.ampV k) (ampV k))
    (ho : o = some (.int n) ∨ o = none ∧ (ampP ≠ none ∨ ∃ k, ampV k ≠ none)) (hK : A.gradK = true) (hB : A.gradB = true)
    (j : ℕ) (hj : j < A.rho.nb.getD 1) (c : Cell d) (hc : InShape A.rho.shape c) :
    ∃ b b', (∀ s < P.nb, A.backward s bcb (grP s) (grV s) (noWf d) = .ok (some (b s)) ∧
      (A.withAmps ampP ampV o).backward s bcb (grP s) (grV s) (noWf d) = .ok (some (b' s))) ∧
      (A.withAmps ampP ampV o).rhoGrad { P with nt := n } b' j c = A.rhoGrad P b j c := by
  obtain ⟨b, b', h1, h2⟩ := h.short bcb ha hv ho hTP hTn hT hT' 0 1 j c hK (.inl hB) (.inl rfl) (.inr ⟨hj, hc⟩)
  exact ⟨b, b', h1, by linarith⟩

/-- Five samples, and twenty with other values from the fourth on. -/
example : ∃ b b' : ℕ → UGrad 2,
    exG.backward 1 false (fun _ t => if t ≤ 3 then 1 + t else 0) (fun _ _ t => if t ≤ 3 then 1 else 0) (noWf 2) = .ok (some (b 1)) ∧
    (exG.withAmps (some ⟨2, 2, 20, fun s i t => if t < 3 then exAmp.val s i t else 77⟩)
      ![none, some ⟨2, 2, 20, fun s i t => if t < 3 then exAmp.val s i t else 88⟩] none).backward 1 false (fun _ t => if t ≤ 3 then 1 + t else 0)
      (fun _ _ t => if t ≤ 3 then 1 else 0) (noWf 2) = .ok (some (b' 1)) ∧
    (exG.withAmps (some ⟨2, 2, 20, fun s i t => if t < 3 then exAmp.val s i t else 77⟩)
      ![none, some ⟨2, 2, 20, fun s i t => if t < 3 then exAmp.val s i t else 88⟩] none).rhoGrad { exGP with nt := 20 } b' 0 ![2, 3] = exG.rhoGrad exGP b 0 ![2, 3] := by
  obtain ⟨b, b', h1, h2⟩ := C144_acoustic_density exG_exact false (fun _ _ t => if t ≤ 3 then 1 + t else 0)
    (fun _ _ _ t => if t ≤ 3 then 1 else 0) 3 20 (fun _ _ t ht => if_neg (by omega)) (fun _ _ _ t ht => if_neg (by omega))
    (by norm_num [exGP, exPl1, exPl]) (by norm_num) (some ⟨2, 2, 20, fun s i t => if t < 3 then exAmp.val s i t else 77⟩)
    ![none, some ⟨2, 2, 20, fun s i t => if t < 3 then exAmp.val s i t else 88⟩] none
    (fun s _ => .some ⟨⟨rfl, rfl, rfl⟩, fun i _ t ht => if_pos ht⟩)
    (fun s _ => Fin.forall_fin_two.2 ⟨.none, .some ⟨⟨rfl, rfl, rfl⟩, fun i _ t ht => if_pos ht⟩⟩)
    (.inr ⟨rfl, .inl (by simp)⟩) rfl rfl 0 (by decide) ![2, 3] (fun k => by fin_cases k <;> decide)
  exact ⟨b, b', (h1 1 (by decide)).1, (h1 1 (by decide)).2, h2⟩

end Dw.Acoustic

namespace Dw.Elastic

open Setup Resample Scalar

variable {d : ℕ}

theorem Exact.withAmps {A : UArgs d} {P : Plan d} {cf : ℤ} (h : Exact A P cf) {n T : ℕ} {ampP : Option AmpT} {ampV : Fin d → Option AmpT} {o : Option PyNum}
    (ha : ∀ s < P.nb, Option.Rel (AmpT.Until s n T) A.ampP ampP) (hv : ∀ s < P.nb, ∀ k, Option.Rel (AmpT.Until s n T) (A.ampV k) (ampV k))
    (ho : o = some (.int n) ∨ o = none ∧ (ampP ≠ none ∨ ∃ k, ampV k ≠ none)) : Exact (A.withAmps ampV ampP o) { P with nt := n } cf :=
  ⟨plan_ok.2 (good_newAmps (plan_ok.1 h.plan) h.ratio (n := n) (amps := List.ofFn ampV ++ [ampP]) (o := o)
    (forall_snoc (rel_length (ha 0 h.nb)) fun k => rel_length (hv 0 h.nb k)) (ho.imp id fun hx => ⟨hx.1, by
      rcases hx.2 with hx | ⟨k, hx⟩
      · obtain ⟨a, ha⟩ := Option.ne_none_iff_exists'.1 hx
        exact ⟨a, by simp [ha]⟩
      · obtain ⟨a, ha⟩ := Option.ne_none_iff_exists'.1 hx
        exact ⟨a, List.mem_append_left _ (List.mem_ofFn.2 ⟨k, ha⟩)⟩⟩)),
    h.pre, h.maxVel, h.ratio, h.interval, h.pml, h.freq, h.nb, h.loc, h.last, h.big,
    fun s hs => ⟨(h.smooth s hs).rfmax, (h.smooth s hs).mu, (h.smooth s hs).buoyancy, (h.smooth s hs).rho, (h.smooth s hs).sum⟩⟩

theorem Exact.short {A : UArgs d} {P : Plan d} {cf : ℤ} (h : Exact A P cf) (bcb : Bool) {grP : ℕ → ℕ → ℕ → ℝ} {grV : ℕ → Fin d → ℕ → ℕ → ℝ}
    {n T : ℕ} {ampP : Option AmpT} {ampV : Fin d → Option AmpT} {o : Option PyNum}
    (ha : ∀ s < P.nb, Option.Rel (AmpT.Until s n T) A.ampP ampP) (hv : ∀ s < P.nb, ∀ k, Option.Rel (AmpT.Until s n T) (A.ampV k) (ampV k))
    (ho : o = some (.int n) ∨ o = none ∧ (ampP ≠ none ∨ ∃ k, ampV k ≠ none)) (hTP : T < P.nt) (hTn : T < n) (hT : ∀ s i t, T < t → grP s i t = 0)
    (hT' : ∀ s k i t, T < t → grV s k i t = 0) (x y z : ℝ) (j : ℕ) (c : Cell d)
    (hL : A.gradL = true ∨ x = 0) (hM : A.gradM = true ∨ y = 0) (hB : A.gradB = true ∨ z = 0)
    (hx : x = 0 ∨ j < A.lam.nb.getD 1 ∧ InShape A.lam.shape c)
    (hy : y = 0 ∨ j < A.mu.nb.getD 1 ∧ InShape A.mu.shape c)
    (hz : z = 0 ∨ j < A.buoyancy.nb.getD 1 ∧ InShape A.buoyancy.shape c) :
    ∃ b b', (∀ s < P.nb, A.backward s bcb (grP s) (grV s) (noWf d) = .ok (some (b s)) ∧
      (A.withAmps ampV ampP o).backward s bcb (grP s) (grV s) (noWf d) = .ok (some (b' s))) ∧
      x * (A.withAmps ampV ampP o).lamGrad { P with nt := n } b' j c + y * (A.withAmps ampV ampP o).muGrad { P with nt := n } b' j c + z * (A.withAmps ampV ampP o).buoyancyGrad { P with nt := n } b' j c =
        x * A.lamGrad P b j c + y * A.muGrad P b j c + z * A.buoyancyGrad P b j c := by
  have b0 : (bump 0 j c : ℕ → Fld d ℝ) = fun _ _ => 0 := by
    funext j' c'
    simp [bump]
  have h' := h.withAmps ha hv ho
  have hG := plan_ok.1 h.plan
  have hg' := plan_ok.1 h'.plan
  let D : UDir d := ⟨bump x j c, bump y j c, bump z j c, fun _ _ _ => 0, fun _ _ _ _ => 0, fun _ => noWf d⟩
  have k1 : A.gradL = true ∨ D.lam = fun _ _ => 0 := hL.imp id fun h0 => by simp only [D]; rw [h0, b0]
  have k2 : A.gradM = true ∨ D.mu = fun _ _ => 0 := hM.imp id fun h0 => by simp only [D]; rw [h0, b0]
  have k3 : A.gradB = true ∨ D.buoyancy = fun _ _ => 0 := hB.imp id fun h0 => by simp only [D]; rw [h0, b0]
  obtain ⟨u, b, hu, hb, hd⟩ := C100_elastic_gradients_exact A P cf h.plan h.pre h.maxVel h.ratio h.interval h.pml h.freq h.nb
    h.loc h.last h.big h.smooth bcb grP grV (fun _ => noWf d) D k1 k2 k3
  obtain ⟨u', b', hu', hb', hd'⟩ := C100_elastic_gradients_exact (A.withAmps ampV ampP o) { P with nt := n } cf h'.plan h'.pre h'.maxVel h'.ratio h'.interval h'.pml h'.freq h'.nb
    h'.loc h'.last h'.big h'.smooth bcb grP grV (fun _ => noWf d) D k1 k2 k3
  refine ⟨b, b', fun s hs => ⟨hb s hs, hb' s hs⟩, ?_⟩
  have key : ∀ e, ∀ s < P.nb, (u' e s).pair (A.withAmps ampV ampP o) (outCells { P with nt := n }) (grP s) (grV s) (noWf d) =
      (u e s).pair A (outCells P) (grP s) (grV s) (noWf d) := fun e s hs => by
    have hF : Fwd (A.plus e D) (A.planPlus P e D) s cf := ⟨plus_good hG h.nb h.maxVel e D, h.pre, hs, h.pml, h.loc s hs, h.last s hs, h.freq, by show 0 < P.interval; rw [h.interval]; exact one_pos,
      .inr (by show P.ratio * P.interval ≤ P.nt ∨ P.nt ≤ 0; rw [h.ratio, h.interval]; omega)⟩
    have hF' : Fwd ((A.withAmps ampV ampP o).plus e D) ((A.withAmps ampV ampP o).planPlus { P with nt := n } e D) s cf :=
      ⟨plus_good hg' h.nb h.maxVel e D, h.pre, hs, h.pml, h.loc s hs, h.last s hs, h.freq, by show 0 < P.interval; rw [h.interval]; exact one_pos,
      .inr (by show P.ratio * P.interval ≤ (n : ℤ) ∨ (n : ℤ) ≤ 0; rw [h.ratio, h.interval]; omega)⟩
    have e1 : (A.withAmps ampV ampP o).plus e D = (A.plus e D).withAmps ampV ampP o := by
      simp only [UArgs.plus, UArgs.withAmps, D, map_plus_zero]

    obtain ⟨r, r', hc, hc', ht⟩ := C124_elastic_causal (A.plus e D) (A.planPlus P e D) s cf hF h.ratio n T ampV ampP o
      (by simp only [UArgs.plus, D, map_plus_zero]; exact ha s hs) (by simp only [UArgs.plus, D, map_plus_zero]; exact hv s hs) ho (.inr (.inl (by show P.interval ≤ n; rw [h.interval]; omega)))
    obtain ⟨q, v1, sig1, mv1, ms1, hq, -, -, -, hl, hm⟩ := C93_elastic_scheme _ _ s cf (plan_ok.2 hF.good) hF.pre hF.lt hF.pml hF.loc hF.last hF.freq hF.interval hF.nt
    obtain ⟨q', v2, sig2, mv2, ms2, hq', -, -, -, hl', hm'⟩ := C93_elastic_scheme _ _ s cf (plan_ok.2 hF'.good) hF'.pre hF'.lt hF'.pml hF'.loc hF'.last hF'.freq hF'.interval hF'.nt
    obtain rfl : r = q := Option.some.inj (Except.ok.inj (hc.symm.trans hq))
    obtain rfl : u e s = r := Option.some.inj (Except.ok.inj ((hu e s hs).symm.trans hc))
    rw [e1] at hq'
    obtain rfl : r' = q' := Option.some.inj (Except.ok.inj (hc'.symm.trans hq'))
    have hu1 := hu' e s hs
    rw [e1] at hu1
    obtain rfl : u' e s = r' := Option.some.inj (Except.ok.inj (hu1.symm.trans hc'))
    have s1 : (A.planPlus P e D).steps = P.nt.toNat := steps_whole h.ratio h.interval
    have s2 : Plan.steps { A.planPlus P e D with nt := n } = n := steps_whole h.ratio h.interval
    have iz : ∀ x : Wavefields d ℝ, ∀ S, x.inner S (noWf d) = 0 := fun x S => by
      simp [Wavefields.inner, noWf]
    unfold UShot.pair
    rw [iz, iz, add_zero, add_zero]
    refine congrArg₂ (· + ·) (tracePair_short (T := T) (hT s) (fun i hk => ?_) (fun i hk => ?_) fun i hk t ht0 => ?_)
      (Finset.sum_congr rfl fun k _ => tracePair_short (T := T) (hT' s k) (fun i hk => ?_) (fun i hk => ?_) fun i hk t ht0 => ?_)
    · have a := hl i hk
      rw [a, downS_one hF.good h.ratio]
      show T < P.nt.toNat
      omega
    · have a := hl' i hk
      rw [a, downS_one hF'.good h.ratio]
      show T < (n : ℤ).toNat
      omega
    · exact (ht t ht0 (by rw [s1]; omega) (by rw [s2]; omega)).1 i hk
    · have a := hm k i hk
      rw [a, downS_one hF.good h.ratio]
      show T < P.nt.toNat
      omega
    · have a := hm' k i hk
      rw [a, downS_one hF'.good h.ratio]
      show T < (n : ℤ).toNat
      omega
    · exact (ht t ht0 (by rw [s1]; omega) (by rw [s2]; omega)).2 k i hk

  have e4 := hd'.unique (hd.congr_of_eventuallyEq (Filter.Eventually.of_forall fun e =>
    Finset.sum_congr rfl fun s hs => key e s (Finset.mem_range.1 hs)))
  have sum : ∀ (x : ℝ) (m : ModelT d ℝ) (g : ℕ → Fld d ℝ), (x = 0 ∨ j < m.nb.getD 1 ∧ InShape m.shape c) →
      ∑ i ∈ Finset.range (m.nb.getD 1), ∑ c' ∈ box (fun _ => 0) m.shape, bump x j c i c' * g i c' = x * g j c := by
    intro x m g hx
    rcases hx with rfl | hx
    · simp [b0]
    · exact bump_sum x hx.1 (mem_box.2 hx.2) g
  simp only [D, givenOf_noWf, ampPair_zero, Finset.sum_const_zero, add_zero, sum x A.lam _ hx, sum y A.mu _ hy, sum z A.buoyancy _ hz, sum x (A.withAmps ampV ampP o).lam _ hx, sum y (A.withAmps ampV ampP o).mu _ hy, sum z (A.withAmps ampV ampP o).buoyancy _ hz] at e4
  exact e4

/-- **C144** for `lambda`. -/
theorem C144_elastic_lambda {A : UArgs d} {P : Plan d} {cf : ℤ} (h : Exact A P cf) (bcb : Bool) (grP : ℕ → ℕ → ℕ → ℝ)
    (grV : ℕ → Fin d → ℕ → ℕ → ℝ) (T n : ℕ) (hT : ∀ s i t, T < t → grP s i t = 0) (hT' : ∀ s k i t, T < t → grV s k i t = 0)
    (hTP : T < P.nt) (hTn : T < n) (ampP : Option AmpT) (ampV : Fin d → Option AmpT) (o : Option PyNum)
    (ha : ∀ s < P.nb, Option.Rel (AmpT.Until s n T) A.ampP ampP)
    (hv : ∀ s < P.nb, ∀ k, Option.Rel (AmpT.Until s n T) (A.ampV k) (ampV k))
    (ho : o = some (.int n) ∨ o = none ∧ (ampP ≠ none ∨ ∃ k, ampV k ≠ none)) (hg : A.gradL = true)
    (j : ℕ) (hj : j < A.lam.nb.getD 1) (c : Cell d) (hc : InShape A.lam.shape c) :
    ∃ b b', (∀ s < P.nb, A.backward s bcb (grP s) (grV s) (noWf d) = .ok (some (b s)) ∧
      (A.withAmps ampV ampP o).backward s bcb (grP s) (grV s) (noWf d) = .ok (some (b' s))) ∧
      (A.withAmps ampV ampP o).lamGrad { P with nt := n } b' j c = A.lamGrad P b j c := by
  obtain ⟨b, b', h1, h2⟩ := h.short bcb ha hv ho hTP hTn hT hT' 1 0 0 j c (.inl hg) (.inr rfl) (.inr rfl) (.inr ⟨hj, hc⟩) (.inl rfl) (.inl rfl)
  exact ⟨b, b', h1, by linarith⟩

/-- **C144** for `mu`. -/
theorem C144_elastic_mu {A : UArgs d} {P : Plan d} {cf : ℤ} (h : Exact A P cf) (bcb : Bool) (grP : ℕ → ℕ → ℕ → ℝ)
    (grV : ℕ → Fin d → ℕ → ℕ → ℝ) (T n : ℕ) (hT : ∀ s i t, T < t → grP s i t = 0) (hT' : ∀ s k i t, T < t → grV s k i t = 0)
    (hTP : T < P.nt) (hTn : T < n) (ampP : Option AmpT) (ampV : Fin d → Option AmpT) (o : Option PyNum)
    (ha : ∀ s < P.nb, Option.Rel (AmpT.Until s n T) A.ampP ampP)
    (hv : ∀ s < P.nb, ∀ k, Option.Rel (AmpT.Until s n T) (A.ampV k) (ampV k))
    (ho : o = some (.int n) ∨ o = none ∧ (ampP ≠ none ∨ ∃ k, ampV k ≠ none)) (hg : A.gradM = true)
    (j : ℕ) (hj : j < A.mu.nb.getD 1) (c : Cell d) (hc : InShape A.mu.shape c) :
    ∃ b b', (∀ s < P.nb, A.backward s bcb (grP s) (grV s) (noWf d) = .ok (some (b s)) ∧
      (A.withAmps ampV ampP o).backward s bcb (grP s) (grV s) (noWf d) = .ok (some (b' s))) ∧
      (A.withAmps ampV ampP o).muGrad { P with nt := n } b' j c = A.muGrad P b j c := by
  obtain ⟨b, b', h1, h2⟩ := h.short bcb ha hv ho hTP hTn hT hT' 0 1 0 j c (.inr rfl) (.inl hg) (.inr rfl) (.inl rfl) (.inr ⟨hj, hc⟩) (.inl rfl)
  exact ⟨b, b', h1, by linarith⟩

/-- **C144** for the buoyancy. -/
theorem C144_elastic_buoyancy {A : UArgs d} {P : Plan d} {cf : ℤ} (h : Exact A P cf) (bcb : Bool) (grP : ℕ → ℕ → ℕ → ℝ)
    (grV : ℕ → Fin d → ℕ → ℕ → ℝ) (T n : ℕ) (hT : ∀ s i t, T < t → grP s i t = 0) (hT' : ∀ s k i t, T < t → grV s k i t = 0)
    (hTP : T < P.nt) (hTn : T < n) (ampP : Option AmpT) (ampV : Fin d → Option AmpT) (o : Option PyNum)
    (ha : ∀ s < P.nb, Option.Rel (AmpT.Until s n T) A.ampP ampP)
    (hv : ∀ s < P.nb, ∀ k, Option.Rel (AmpT.Until s n T) (A.ampV k) (ampV k))
    (ho : o = some (.int n) ∨ o = none ∧ (ampP ≠ none ∨ ∃ k, ampV k ≠ none)) (hg : A.gradB = true)
    (j : ℕ) (hj : j < A.buoyancy.nb.getD 1) (c : Cell d) (hc : InShape A.buoyancy.shape c) :
    ∃ b b', (∀ s < P.nb, A.backward s bcb (grP s) (grV s) (noWf d) = .ok (some (b s)) ∧
      (A.withAmps ampV ampP o).backward s bcb (grP s) (grV s) (noWf d) = .ok (some (b' s))) ∧
      (A.withAmps ampV ampP o).buoyancyGrad { P with nt := n } b' j c = A.buoyancyGrad P b j c := by
  obtain ⟨b, b', h1, h2⟩ := h.short bcb ha hv ho hTP hTn hT hT' 0 0 1 j c (.inr rfl) (.inr rfl) (.inl hg) (.inl rfl) (.inl rfl) (.inr ⟨hj, hc⟩)
  exact ⟨b, b', h1, by linarith⟩

/-- Five samples, and twenty with other values from the fourth on. -/
example : ∃ b b' : ℕ → UGrad 2,
    exG.backward 1 false (fun _ t => if t ≤ 3 then 1 + t else 0) (fun _ _ t => if t ≤ 3 then 1 else 0) (noWf 2) = .ok (some (b 1)) ∧
    (exG.withAmps ![none, some ⟨2, 2, 20, fun s i t => if t < 3 then exAmp.val s i t else 88⟩]
      (some ⟨2, 2, 20, fun s i t => if t < 3 then exAmp.val s i t else 77⟩) none).backward 1 false (fun _ t => if t ≤ 3 then 1 + t else 0)
      (fun _ _ t => if t ≤ 3 then 1 else 0) (noWf 2) = .ok (some (b' 1)) ∧
    (exG.withAmps ![none, some ⟨2, 2, 20, fun s i t => if t < 3 then exAmp.val s i t else 88⟩]
      (some ⟨2, 2, 20, fun s i t => if t < 3 then exAmp.val s i t else 77⟩) none).buoyancyGrad { exGP with nt := 20 } b' 0 ![2, 3] = exG.buoyancyGrad exGP b 0 ![2, 3] := by
  obtain ⟨b, b', h1, h2⟩ := C144_elastic_buoyancy exG_exact false (fun _ _ t => if t ≤ 3 then 1 + t else 0)
    (fun _ _ _ t => if t ≤ 3 then 1 else 0) 3 20 (fun _ _ t ht => if_neg (by omega)) (fun _ _ _ t ht => if_neg (by omega))
    (by norm_num [exGP, exPl1, exPl]) (by norm_num) (some ⟨2, 2, 20, fun s i t => if t < 3 then exAmp.val s i t else 77⟩)
    ![none, some ⟨2, 2, 20, fun s i t => if t < 3 then exAmp.val s i t else 88⟩] none
    (fun s _ => .some ⟨⟨rfl, rfl, rfl⟩, fun i _ t ht => if_pos ht⟩)
    (fun s _ => Fin.forall_fin_two.2 ⟨.none, .some ⟨⟨rfl, rfl, rfl⟩, fun i _ t ht => if_pos ht⟩⟩)
    (.inr ⟨rfl, .inl (by simp)⟩) rfl 0 (by decide) ![2, 3] (fun k => by fin_cases k <;> decide)
  exact ⟨b, b', (h1 1 (by decide)).1, (h1 1 (by decide)).2, h2⟩

end Dw.Elastic
