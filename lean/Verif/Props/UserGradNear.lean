import Verif.Props.UserNear
import Verif.Props.UserDot
import Verif.Props.UserReciprocityElastic
import Verif.Props.UserReciprocityBorn

/-!
# C140: gradients of models are zero where the receivers do not see
-/

namespace Dw.Setup

open Scalar Resample

variable {d : ℕ}

/-- `a` in cell `c` of model `j`, and 0 elsewhere. -/
noncomputable def bump (a : ℝ) (j : ℕ) (c : Cell d) : ℕ → Fld d ℝ := fun j' c' => by
  classical exact if j' = j ∧ c' = c then a else 0

theorem bump_sum (a : ℝ) {j n : ℕ} {c : Cell d} {S : Finset (Cell d)} (hj : j < n) (hc : c ∈ S) (g : ℕ → Fld d ℝ) :
    ∑ i ∈ Finset.range n, ∑ c' ∈ S, bump a j c i c' * g i c' = a * g j c := by
  rw [Finset.sum_eq_single j (fun i _ hi => Finset.sum_eq_zero fun c' _ => by simp [bump, hi])
    (fun h => absurd (Finset.mem_range.2 hj) h), Finset.sum_eq_single c (fun c' _ hi => by simp [bump, hi])
    (fun h => absurd hc h)]
  simp [bump]

theorem bump_near (e a : ℝ) (j : ℕ) {c c₀ : Cell d} (m : ModelT d ℝ) (s : ℕ) {n : ℤ} (h : ¬Spec.Near c₀ n c) :
    m.SameNear s c₀ n (plusModel e m (bump a j c)) := by
  refine ⟨rfl, rfl, fun c' _ hc => ?_⟩
  have hne : c' ≠ c := fun h' => h (h' ▸ hc)
  unfold ModelT.shot plusModel ModelT.withVal
  simp [bump, hne]

theorem rel_same (o : Option LocT) (s : ℕ) (c₀ : Cell d) (n : ℤ) (a : Option AmpT) :
    Option.Rel (AmpT.SameNear o s c₀ n) a a := by
  cases a with
  | none => exact .none
  | some a => exact .some ⟨rfl, fun _ _ _ _ => rfl⟩

theorem ampPair_zero (a : Option AmpT) (x : ℕ → ℕ → ℝ) : ampPair a (fun _ _ => 0) x = 0 := by
  cases a <;> simp [ampPair]

/-- The pairing only sees samples with nonzero gradients. -/
theorem tracePair_until {n T : ℕ} {gr : ℕ → ℕ → ℝ} {x x' : ℕ → Sig ℝ} (hT : ∀ i t, T < t → gr i t = 0)
    (hl : ∀ i < n, (x' i).len = (x i).len) (h : ∀ i < n, ∀ t ≤ T, (x' i).val t = (x i).val t) :
    tracePair n gr x' = tracePair n gr x := by
  refine Finset.sum_congr rfl fun i hi => ?_
  rw [hl i (Finset.mem_range.1 hi)]
  refine Finset.sum_congr rfl fun t _ => ?_
  by_cases ht : t ≤ T
  · rw [h i (Finset.mem_range.1 hi) t ht]
  · rw [hT i t (by omega), zero_mul, zero_mul]

end Dw.Setup

namespace Dw.Scalar

open Setup Resample

variable {d : ℕ}

/-- **C140** If the given gradients of the traces are zero after sample `T`, the gradient of the velocity is zero in all cells
more than `T` times half the accuracy away from all receivers. -/
theorem C140_gradient_near (A : UArgs d) (P : Plan d) (cf : ℤ) (h : A.setup.plan = .ok P)
    (hmv : A.maxVel ≠ none) (hg : A.grad = true) (hr : P.ratio = 1) (hi : P.interval = 1) (hP : PmlOk P)
    (hcf : checkCallbackFrequency A.callbackFreq = .ok cf) (hnb : 0 < P.nb)
    (hsrc : ∀ s < P.nb, ∀ l, A.src = some l → WholeIgnored d l s)
    (hrcv : ∀ s < P.nb, ∀ l, A.rcv = some l → WholeIgnored d l s)
    (bcb : Bool) (gr : ℕ → ℕ → ℕ → ℝ) (T : ℕ) (hT : ∀ s i t, T < t → gr s i t = 0)
    (j : ℕ) (hj : j < A.v.nb.getD 1) (c : Cell d) (hc : InShape A.v.shape c)
    (hfar : ∀ s < P.nb, ∀ i < locCount A.rcv, ∀ c₀, locCell A.rcv s i = some c₀ →
      ¬Spec.Near c₀ ((P.acc.order / 2 : ℕ) * T) c) :
    ∃ b, (∀ s < P.nb, A.backward s bcb (gr s) (Wavefields.zero d) = .ok (some (b s))) ∧ A.vGrad P b j c = 0 := by
  let D : UDir d := ⟨bump 1 j c, fun _ _ _ => 0, fun _ => Wavefields.zero d⟩
  obtain ⟨u, b, hu, hb, hd⟩ := C94_gradients_exact A P cf h hmv hg hr hi hP hcf hnb hsrc hrcv bcb gr (fun _ => Wavefields.zero d) D
  refine ⟨b, hb, ?_⟩
  have e1 : ∀ e, A.plus e D = A.withModel (plusModel e A.v (bump 1 j c)) A.amps := fun e => by
    have h1 : (A.amps.map fun a => plusAmp e a fun _ _ _ => 0) = A.amps := by cases A.amps <;> simp [plusAmp]
    have h2 : ∀ w : Option (WfT d), (w.map fun w => plusWf e w fun _ _ => 0) = w := fun w => by cases w <;> simp [plusWf]
    simp only [UArgs.plus, D, Wavefields.zero, h1, h2]
    rfl
  have hG := plan_ok.1 h
  have hF : ∀ s < P.nb, Fwd A P s cf := fun s hs => ⟨hG, hs, hP, hsrc s hs, hrcv s hs, hcf, by omega, .inr (by rw [hr, hi]; omega)⟩
  have key : ∀ e, ∀ s < P.nb, (u e s).pair A.nRcv (outCells P) (gr s) (Wavefields.zero d) =
      (u 0 s).pair A.nRcv (outCells P) (gr s) (Wavefields.zero d) := fun e s hs => by
    have h := hF s hs
    have hg' := good_model (v := plusModel e A.v (bump 1 j c)) (amps := A.amps) hG hnb ⟨rfl, rfl⟩ rfl (.inl hmv)
    obtain ⟨r, w, psi, zeta, hc, -, -, -, ht⟩ := C90_scalar_scheme A P s cf (plan_ok.2 hG) hs hP h.src h.rcv hcf h.interval h.nt
    obtain ⟨r', w', psi', zeta', hc', -, -, -, ht'⟩ := C90_scalar_scheme (A.withModel (plusModel e A.v (bump 1 j c)) A.amps)
      (planModel P (plusModel e A.v (bump 1 j c))) s cf (plan_ok.2 hg') hs hP h.src h.rcv hcf h.interval h.nt
    have e0 : u 0 s = r := by
      have := hu 0 s hs
      rw [e1 0, show plusModel 0 A.v (bump 1 j c) = A.v by simp [plusModel, ModelT.withVal]] at this
      exact Option.some.inj (Except.ok.inj (this.symm.trans hc))
    have e2 : u e s = r' := by
      have := hu e s hs
      rw [e1 e] at this
      exact Option.some.inj (Except.ok.inj (this.symm.trans hc'))
    have hn : A.nRcv = locCount A.rcv := by
      unfold UArgs.nRcv locCount
      cases A.rcv <;> rfl
    have iz : ∀ x : Wavefields d ℝ, x.inner (outCells P) (Wavefields.zero d) = 0 := fun x => by
      simp [Wavefields.inner, Wavefields.zero]
    rw [e0, e2, hn]
    unfold UShot.pair
    rw [iz, iz, add_zero, add_zero]
    refine tracePair_until (T := T) (hT s) (fun i hl => ?_) fun i hl t ht0 => ?_
    · have a1 := ht' i hl
      have a2 := ht i hl
      rw [a1, a2, downS_one hg' hr, downS_one hG hr]
      rfl
    · cases e3 : locCell (d := d) A.rcv s i with
      | none =>
          have a1 := ht' i hl
          have a2 := ht i hl
          rw [a1, a2, downS_one hg' hr, downS_one hG hr]
          have z : ∀ f : Fld d ℝ, locValue A.rcv s i f = 0 := fun f => by unfold locValue; rw [e3]
          show (if _ then locValue A.rcv s i _ else 0) = if _ then locValue A.rcv s i _ else 0
          rw [z, z, ite_self, ite_self]
      | some c₀ =>
          obtain ⟨q, q', b1, b2, b3⟩ := C126_near A P s cf h (plusModel e A.v (bump 1 j c)) A.amps (.inl hmv) T i hl c₀ e3
            (bump_near e 1 j A.v s (hfar s hs i hl c₀ e3)) (rel_same A.src s c₀ _ A.amps)
          obtain rfl : r = q := Option.some.inj (Except.ok.inj (hc.symm.trans b1))
          obtain rfl : r' = q' := Option.some.inj (Except.ok.inj (hc'.symm.trans b2))
          exact b3.2 hr t ht0
  have hconst : HasDerivAt (fun e => ∑ s ∈ Finset.range P.nb, (u e s).pair A.nRcv (outCells P) (gr s) (Wavefields.zero d)) 0 0 := by
    rw [show (fun e => ∑ s ∈ Finset.range P.nb, (u e s).pair A.nRcv (outCells P) (gr s) (Wavefields.zero d)) = fun _ =>
      ∑ s ∈ Finset.range P.nb, (u 0 s).pair A.nRcv (outCells P) (gr s) (Wavefields.zero d) from
      funext fun e => Finset.sum_congr rfl fun s hs => key e s (Finset.mem_range.1 hs)]
    exact hasDerivAt_const _ _
  have := hd.unique hconst
  rw [bump_sum 1 hj (mem_box.2 hc), Finset.sum_eq_zero, one_mul, add_zero] at this
  · exact this
  · intro s _
    have e2 : A.givenOf (Wavefields.zero d) = Wavefields.zero d := by
      simp [UArgs.givenOf, Wavefields.zero]
    show A.ampPair (fun _ _ => 0) _ + (A.givenOf (Wavefields.zero d)).inner _ _ = 0
    rw [e2, Wavefields.zero_inner, add_zero]
    exact ampPair_zero A.amps _

/-- The gradient of samples up to the third is zero in the first row of cells. -/
example : ∃ b : ℕ → UGrad 2, exG.backward 0 false (fun _ t => if t ≤ 2 then 1 else 0) (Wavefields.zero 2) = .ok (some (b 0)) ∧
    exG.vGrad exGP b 0 ![0, 7] = 0 := by
  obtain ⟨b, h1, h2⟩ := C140_gradient_near exG exGP 1 (plan_ok.2 exG_good) (by simp [exG, exV, exU]) rfl rfl rfl
    (.inl (by norm_num [exGP, exQ])) rfl one_pos (fun s hs => (exV_accepted 3 (.inr rfl) s hs).src)
    (fun s hs => (exV_accepted 3 (.inr rfl) s hs).rcv) false (fun _ _ t => if t ≤ 2 then 1 else 0) 2
    (fun s i t ht => if_neg (by omega)) 0 one_pos ![0, 7] (fun k => by fin_cases k <;> decide) (fun s hs i hi c₀ hc h => by
      obtain rfl : s = 0 := Nat.lt_one_iff.1 hs
      obtain rfl := Option.some.inj ((exOne_cell 5 4 i).symm.trans hc)
      exact absurd (h 0) (by decide))
  exact ⟨b, h1 0 one_pos, h2⟩

end Dw.Scalar

namespace Dw.Acoustic

open Setup Resample Scalar

variable {d : ℕ}

theorem exAt_whole {l : LocT} (hl : l = exAt 2 3 ∨ l = exAt 4 5) {s : ℕ} (hs : s < 2) : Scalar.WholeIgnored 2 l s := by
  interval_cases s
  · intro i hi
    left
    rcases hl with rfl | rfl <;> unfold LocT.Ignored exAt <;> intro k hk <;> rfl
  · exact (exAt_locs (st := true) hl).2.1


theorem exAt_far {i s : ℕ} (hi : i < 1) (hs : s < 2) {c₀ : Cell 2} (hc : locCell (some (exAt 4 5)) s i = some c₀) :
    ¬Spec.Near c₀ 4 ![3, 0] := by
  obtain rfl : i = 0 := by omega
  interval_cases s
  · unfold locCell at hc
    dsimp only at hc
    rw [if_pos (show (exAt 4 5).Ignored 2 0 0 from fun k _ => rfl)] at hc
    cases hc
  · obtain rfl := Option.some.inj ((Elastic.exAt_cell (by decide +kernel)).symm.trans hc)
    intro h
    exact absurd (h 1) (by decide +kernel)

/-- The direction that changes the models in cell `c` only. -/
noncomputable def bumpDir (x y : ℝ) (j : ℕ) (c : Cell d) : UDir d :=
  ⟨bump x j c, bump y j c, fun _ _ _ => 0, fun _ _ _ _ => 0,
    fun _ => ⟨fun _ => 0, fun _ _ => 0, fun _ _ => 0, fun _ _ => 0⟩⟩

/-- The hypotheses of C98, and a cell that the receivers do not see until sample `T`. -/
structure Unseen (A : UArgs d) (P : Plan d) (cf : ℤ) (grP : ℕ → ℕ → ℕ → ℝ) (grV : ℕ → Fin d → ℕ → ℕ → ℝ) (T : ℕ)
    (c : Cell d) : Prop where
  plan : A.setup.plan = .ok P
  pre : ¬A.Pre
  maxVel : A.opts.maxVel ≠ none
  ratio : P.ratio = 1
  interval : P.interval = 1
  pml : PmlOk P
  freq : checkCallbackFrequency A.opts.callbackFreq = .ok cf
  nb : 0 < P.nb
  loc : ∀ s < P.nb, ∀ l, some l ∈ A.setup.srcs ++ A.setup.rcvs → WholeIgnored d l s
  last : ∀ s < P.nb, ∀ k, 0 < P.w1 k ∨ (P.ext k).2 = A.v.shape k ∨ P.BeforeLast k s (A.srcV k) ∧ P.BeforeLast k s (A.rcvV k)
  big : ∀ k, (P.acc.pad : ℤ) + 1 ≤ (P.ext k).2 - (P.ext k).1 + P.w1 k
  rfmax : 0 ≤ A.rfmax
  smooth : ∀ s < P.nb, ∀ k c, |Spec.mean (P.grid.extend (A.rho.shot s)) k c| ≠ A.rfmax
  lateP : ∀ s i t, T < t → grP s i t = 0
  lateV : ∀ s k i t, T < t → grV s k i t = 0
  farP : ∀ s < P.nb, ∀ i < locCount A.rcvP, ∀ c₀, locCell A.rcvP s i = some c₀ →
    ¬Spec.Near c₀ (2 * (P.acc.order / 2 : ℕ) * T) c
  farV : ∀ s < P.nb, ∀ k, ∀ i < locCount (A.rcvV k), ∀ c₀, locCell (A.rcvV k) s i = some c₀ →
    ¬Spec.Near c₀ (2 * (P.acc.order / 2 : ℕ) * T) c

/-- No gradients of final wavefields. -/
def noWf (d : ℕ) : Wavefields d ℝ := ⟨fun _ => 0, fun _ _ => 0, fun _ _ => 0, fun _ _ => 0⟩

theorem Unseen.grads {A : UArgs d} {P : Plan d} {cf : ℤ} {grP : ℕ → ℕ → ℕ → ℝ} {grV : ℕ → Fin d → ℕ → ℕ → ℝ} {T : ℕ}
    {c : Cell d} (h : Unseen A P cf grP grV T c) (bcb : Bool) (x y : ℝ) (j : ℕ)
    (hK : A.gradK = true) (hB : A.gradB = true ∨ y = 0)
    (hx : x = 0 ∨ j < A.v.nb.getD 1 ∧ InShape A.v.shape c) (hy : y = 0 ∨ j < A.rho.nb.getD 1 ∧ InShape A.rho.shape c) :
    ∃ b, (∀ s < P.nb, A.backward s bcb (grP s) (grV s) (noWf d) = .ok (some (b s))) ∧
      x * A.vGrad P b j c + y * A.rhoGrad P b j c = 0 := by
  have b0 : (bump 0 j c : ℕ → Fld d ℝ) = fun _ _ => 0 := by
    funext j' c'
    simp [bump]
  obtain ⟨u, b, hu, hb, hd⟩ := C98_acoustic_gradients_exact A P cf h.plan h.pre h.maxVel h.ratio h.interval h.pml h.freq h.nb
    h.loc h.last h.big h.rfmax h.smooth bcb grP grV (fun _ => noWf d) (bumpDir x y j c) (.inl hK)
    (hB.imp id fun h0 => by rw [bumpDir, h0, b0])
  refine ⟨b, hb, ?_⟩
  have e1 : ∀ e, A.plus e (bumpDir x y j c) =
      A.withModels (plusModel e A.v (bump x j c)) (plusModel e A.rho (bump y j c)) A.ampP A.ampV := fun e => by
    have h1 : ∀ a : Option AmpT, (a.map fun a => plusAmp e a fun _ _ _ => 0) = a := fun a => by cases a <;> simp [plusAmp]
    have h2 : ∀ w : Option (WfT d), (w.map fun w => plusWf e w fun _ _ => 0) = w := fun w => by cases w <;> simp [plusWf]
    simp only [UArgs.plus, bumpDir, UWf.plus, h1, h2]
    rfl
  have hG := plan_ok.1 h.plan
  have key : ∀ e, ∀ s < P.nb, (u e s).pair A (outCells P) (grP s) (grV s) (noWf d) =
      (u 0 s).pair A (outCells P) (grP s) (grV s) (noWf d) := fun e s hs => by
    have hF : Fwd A P s cf := ⟨hG, h.pre, hs, h.pml, h.loc s hs, h.last s hs, h.freq, by rw [h.interval]; exact one_pos,
      .inr (by rw [h.ratio, h.interval]; omega)⟩
    have hg' := good_models (v := plusModel e A.v (bump x j c)) (rho := plusModel e A.rho (bump y j c)) (ampP := A.ampP)
      (ampV := A.ampV) hG h.nb ⟨rfl, rfl⟩ ⟨rfl, rfl⟩ rfl (fun _ => rfl) (.inl h.maxVel)
    obtain ⟨r, p, w, phi, psi, hc, -, -, -, ht, htv⟩ := C92_acoustic_scheme A P s cf h.plan h.pre hs h.pml hF.loc hF.last
      hF.freq hF.interval hF.nt
    obtain ⟨r', p', w', phi', psi', hc', -, -, -, ht', htv'⟩ := C92_acoustic_scheme _ _ s cf (plan_ok.2 hg') h.pre hs h.pml
      hF.loc hF.last hF.freq hF.interval hF.nt
    have e0 : u 0 s = r := by
      have := hu 0 s hs
      rw [e1 0, show plusModel 0 A.v (bump x j c) = A.v by simp [plusModel, ModelT.withVal],
        show plusModel 0 A.rho (bump y j c) = A.rho by simp [plusModel, ModelT.withVal]] at this
      exact Option.some.inj (Except.ok.inj (this.symm.trans hc))
    have e2 : u e s = r' := by
      have := hu e s hs
      rw [e1 e] at this
      exact Option.some.inj (Except.ok.inj (this.symm.trans hc'))
    have iz : ∀ x : Wavefields d ℝ, x.inner (outCells P) (noWf d) = 0 := fun x => by
      simp [Wavefields.inner, noWf]
    have near : ∀ c₀, ¬Spec.Near c₀ (2 * (P.acc.order / 2 : ℕ) * T) c →
        (∀ i < locCount A.rcvP, locCell A.rcvP s i = some c₀ → P.SameUntil T (r.tracesP i) (r'.tracesP i)) ∧
        ∀ k, ∀ i < locCount (A.rcvV k), locCell (A.rcvV k) s i = some c₀ → P.SameUntil T (r.tracesV k i) (r'.tracesV k i) :=
      fun c₀ hf => by
      obtain ⟨q, q', b1, b2, b3⟩ := C126_acoustic_near A P s cf hF (plusModel e A.v (bump x j c))
        (plusModel e A.rho (bump y j c)) A.ampP A.ampV (.inl h.maxVel) T c₀ (bump_near e x j A.v s hf)
        (bump_near e y j A.rho s hf) (rel_same A.srcP s c₀ _ A.ampP) fun k => rel_same (A.srcV k) s c₀ _ (A.ampV k)
      obtain rfl : r = q := Option.some.inj (Except.ok.inj (hc.symm.trans b1))
      obtain rfl : r' = q' := Option.some.inj (Except.ok.inj (hc'.symm.trans b2))
      exact b3
    have z : ∀ (o : Option LocT) (i : ℕ), locCell (d := d) o s i = none → ∀ f : Fld d ℝ, locValue o s i f = 0 :=
      fun o i e3 f => by
      unfold locValue
      rw [e3]
    rw [e0, e2]
    unfold UShot.pair
    rw [iz, iz, add_zero, add_zero]
    refine congrArg₂ (· + ·) (tracePair_until (T := T) (h.lateP s) (fun i hl => ?_) fun i hl t ht0 => ?_)
      (Finset.sum_congr rfl fun k _ => tracePair_until (T := T) (h.lateV s k) (fun i hl => ?_) fun i hl t ht0 => ?_)
    · have a1 := ht' i hl
      have a2 := ht i hl
      rw [a1, a2, downS_one hg' h.ratio, downS_one hG h.ratio]
      rfl
    · cases e3 : locCell (d := d) A.rcvP s i with
      | none =>
          have a1 := ht' i hl
          have a2 := ht i hl
          rw [a1, a2, downS_one hg' h.ratio, downS_one hG h.ratio]
          show (if _ then locValue A.rcvP s i _ else 0) = if _ then locValue A.rcvP s i _ else 0
          rw [z _ _ e3, z _ _ e3, ite_self, ite_self]
      | some c₀ => exact ((near c₀ (h.farP s hs i hl c₀ e3)).1 i hl e3).2 h.ratio t ht0
    · have a1 := htv' k i hl
      have a2 := htv k i hl
      rw [a1, a2, downS_one hg' h.ratio, downS_one hG h.ratio]
      rfl
    · cases e3 : locCell (d := d) (A.rcvV k) s i with
      | none =>
          have a1 := htv' k i hl
          have a2 := htv k i hl
          rw [a1, a2, downS_one hg' h.ratio, downS_one hG h.ratio]
          show (if _ then locValue (A.rcvV k) s i _ else 0) = if _ then locValue (A.rcvV k) s i _ else 0
          rw [z _ _ e3, z _ _ e3, ite_self, ite_self]
      | some c₀ => exact ((near c₀ (h.farV s hs k i hl c₀ e3)).2 k i hl e3).2 h.ratio t ht0
  have hconst : HasDerivAt (fun e => ∑ s ∈ Finset.range P.nb, (u e s).pair A (outCells P) (grP s) (grV s) (noWf d)) 0 0 := by
    rw [show (fun e => ∑ s ∈ Finset.range P.nb, (u e s).pair A (outCells P) (grP s) (grV s) (noWf d)) = fun _ =>
      ∑ s ∈ Finset.range P.nb, (u 0 s).pair A (outCells P) (grP s) (grV s) (noWf d) from
      funext fun e => Finset.sum_congr rfl fun s hs => key e s (Finset.mem_range.1 hs)]
    exact hasDerivAt_const _ _
  have := hd.unique hconst
  have sum : ∀ (x : ℝ) (m : ModelT d ℝ) (g : ℕ → Fld d ℝ), (x = 0 ∨ j < m.nb.getD 1 ∧ InShape m.shape c) →
      ∑ i ∈ Finset.range (m.nb.getD 1), ∑ c' ∈ box (fun _ => 0) m.shape, bump x j c i c' * g i c' = x * g j c := by
    intro x m g hx
    rcases hx with rfl | hx
    · simp [b0]
    · exact bump_sum x hx.1 (mem_box.2 hx.2) g
  simp only [bumpDir] at this
  rw [sum x A.v _ hx, sum y A.rho _ hy, Finset.sum_eq_zero, add_zero] at this
  · exact this
  · intro s _
    have e2 : (A.wf.givenOf ⟨fun _ => 0, fun _ _ => 0, fun _ _ => 0, fun _ _ => 0⟩).inner (outCells P) (b s).wf = 0 := by
      simp [UWf.givenOf, Wavefields.inner]
    rw [e2, add_zero, ampPair_zero, zero_add]
    exact Finset.sum_eq_zero fun k _ => ampPair_zero _ _

/-- **C140** for the velocity of `acoustic`. -/
theorem C140_acoustic_velocity {A : UArgs d} {P : Plan d} {cf : ℤ} {grP : ℕ → ℕ → ℕ → ℝ} {grV : ℕ → Fin d → ℕ → ℕ → ℝ} {T : ℕ}
    {c : Cell d} (h : Unseen A P cf grP grV T c) (bcb : Bool) (j : ℕ) (hK : A.gradK = true) (hj : j < A.v.nb.getD 1)
    (hc : InShape A.v.shape c) :
    ∃ b, (∀ s < P.nb, A.backward s bcb (grP s) (grV s) (noWf d) = .ok (some (b s))) ∧ A.vGrad P b j c = 0 := by
  obtain ⟨b, h1, h2⟩ := h.grads bcb 1 0 j hK (.inr rfl) (.inr ⟨hj, hc⟩) (.inl rfl)
  exact ⟨b, h1, by linarith⟩

/-- **C140** for the density of `acoustic`. -/
theorem C140_acoustic_density {A : UArgs d} {P : Plan d} {cf : ℤ} {grP : ℕ → ℕ → ℕ → ℝ} {grV : ℕ → Fin d → ℕ → ℕ → ℝ} {T : ℕ}
    {c : Cell d} (h : Unseen A P cf grP grV T c) (bcb : Bool) (j : ℕ) (hK : A.gradK = true) (hB : A.gradB = true)
    (hj : j < A.rho.nb.getD 1) (hc : InShape A.rho.shape c) :
    ∃ b, (∀ s < P.nb, A.backward s bcb (grP s) (grV s) (noWf d) = .ok (some (b s))) ∧ A.rhoGrad P b j c = 0 := by
  obtain ⟨b, h1, h2⟩ := h.grads bcb 0 1 j hK (.inl hB) (.inl rfl) (.inr ⟨hj, hc⟩)
  exact ⟨b, h1, by linarith⟩

theorem exX_unseen : Unseen (exX.between 0 1 (exAt 2 3) (exAt 4 5) exCall) (exXP 0 1) 1
    (fun _ _ t => if t ≤ 1 then 1 else 0) (fun _ _ _ t => if t ≤ 1 then 1 else 0) 1 ![3, 0] where
  plan := plan_ok.2 (exX_fwd 0 1).good
  pre := (exX_fwd 0 1).pre
  maxVel := by simp [exX, UArgs.between, exO0, exO1, exO]
  ratio := rfl
  interval := rfl
  pml := (exX_fwd 0 1).pml
  freq := rfl
  nb := by norm_num [exXP, exPl0]
  loc := fun s hs l hl => by
    rw [between_setup, List.mem_append] at hl
    exact exAt_whole (hl.imp (oneAt_mem _ _ _).1 (oneAt_mem _ _ _).1) hs
  last := fun _ _ k => .inr (.inl (by
    show ((![(0, 7), (0, 9)] : Fin 2 → ℤ × ℤ) k).2 = (![7, 9] : Fin 2 → ℤ) k
    revert k
    decide))
  big := fun k => by fin_cases k <;> decide +kernel
  rfmax := by norm_num [exX, exU, UArgs.between]
  smooth := fun s _ => exRho_mean (exXP 0 1) s fun k => by fin_cases k <;> decide +kernel
  lateP := fun _ _ t ht => if_neg (by omega)
  lateV := fun _ _ _ t ht => if_neg (by omega)
  farP := fun s hs i hi => by cases hi
  farV := fun s hs k i hi c₀ hc => by
    fin_cases k
    · exact exAt_far (i := i) hi hs hc
    · cases hi

/-- The gradient of the first two samples is zero in a cell five cells from the receiver. -/
example : ∃ b : ℕ → UGrad 2, (exX.between 0 1 (exAt 2 3) (exAt 4 5) exCall).backward 1 false (fun _ t => if t ≤ 1 then 1 else 0)
    (fun _ _ t => if t ≤ 1 then 1 else 0) (noWf 2) = .ok (some (b 1)) ∧
    (exX.between 0 1 (exAt 2 3) (exAt 4 5) exCall).rhoGrad (exXP 0 1) b 0 ![3, 0] = 0 := by
  obtain ⟨b, h1, h2⟩ := C140_acoustic_density exX_unseen false 0 rfl rfl one_pos (fun k => by fin_cases k <;> decide)
  exact ⟨b, h1 1 (by norm_num [exXP, exPl0]), h2⟩

end Dw.Acoustic

namespace Dw.Elastic

open Setup Resample Scalar

variable {d : ℕ}


/-- The direction that changes the models in cell `c` only. -/
noncomputable def bumpDir (x y z : ℝ) (j : ℕ) (c : Cell d) : UDir d :=
  ⟨bump x j c, bump y j c, bump z j c, fun _ _ _ => 0, fun _ _ _ _ => 0,
    fun _ => ⟨fun _ _ => 0, fun _ _ => 0, fun _ _ => 0, fun _ _ _ => 0, fun _ _ _ => 0⟩⟩

/-- The hypotheses of C100, and a cell that the receivers do not see until sample `T`. -/
structure Unseen (A : UArgs d) (P : Plan d) (cf : ℤ) (grP : ℕ → ℕ → ℕ → ℝ) (grV : ℕ → Fin d → ℕ → ℕ → ℝ) (T : ℕ)
    (c : Cell d) : Prop where
  plan : A.setup.plan = .ok P
  pre : ¬A.Pre
  maxVel : A.opts.maxVel ≠ none
  ratio : P.ratio = 1
  interval : P.interval = 1
  pml : PmlOk P
  freq : checkCallbackFrequency A.opts.callbackFreq = .ok cf
  nb : 0 < P.nb
  loc : ∀ s < P.nb, ∀ l, some l ∈ A.setup.srcs ++ A.setup.rcvs → WholeIgnored d l s
  last : ∀ s < P.nb, ∀ k, 0 < P.w1 k ∨ (P.ext k).2 = A.lam.shape k ∨ P.BeforeLast k s (A.srcV k) ∧ P.BeforeLast k s (A.rcvV k)
  big : ∀ k, (P.acc.pad : ℤ) + 1 ≤ (P.ext k).2 - (P.ext k).1 + P.w1 k
  smooth : ∀ s < P.nb, Smooth A P s
  lateP : ∀ s i t, T < t → grP s i t = 0
  lateV : ∀ s k i t, T < t → grV s k i t = 0
  farP : ∀ s < P.nb, ∀ i < locCount A.rcvP, ∀ c₀, locCell A.rcvP s i = some c₀ →
    ¬Spec.Near c₀ (2 * (P.acc.order / 2 : ℕ) * T) c
  farV : ∀ s < P.nb, ∀ k, ∀ i < locCount (A.rcvV k), ∀ c₀, locCell (A.rcvV k) s i = some c₀ →
    ¬Spec.Near c₀ (2 * (P.acc.order / 2 : ℕ) * T) c

/-- No gradients of final wavefields. -/
def noWf (d : ℕ) : Wavefields d ℝ := ⟨fun _ _ => 0, fun _ _ => 0, fun _ _ => 0, fun _ _ _ => 0, fun _ _ _ => 0⟩

theorem Unseen.grads {A : UArgs d} {P : Plan d} {cf : ℤ} {grP : ℕ → ℕ → ℕ → ℝ} {grV : ℕ → Fin d → ℕ → ℕ → ℝ} {T : ℕ}
    {c : Cell d} (h : Unseen A P cf grP grV T c) (bcb : Bool) (x y z : ℝ) (j : ℕ)
    (hL : A.gradL = true ∨ x = 0) (hM : A.gradM = true ∨ y = 0) (hB : A.gradB = true ∨ z = 0)
    (hx : x = 0 ∨ j < A.lam.nb.getD 1 ∧ InShape A.lam.shape c) (hy : y = 0 ∨ j < A.mu.nb.getD 1 ∧ InShape A.mu.shape c)
    (hz : z = 0 ∨ j < A.buoyancy.nb.getD 1 ∧ InShape A.buoyancy.shape c) :
    ∃ b, (∀ s < P.nb, A.backward s bcb (grP s) (grV s) (noWf d) = .ok (some (b s))) ∧
      x * A.lamGrad P b j c + y * A.muGrad P b j c + z * A.buoyancyGrad P b j c = 0 := by
  have b0 : (bump 0 j c : ℕ → Fld d ℝ) = fun _ _ => 0 := by
    funext j' c'
    simp [bump]
  obtain ⟨u, b, hu, hb, hd⟩ := C100_elastic_gradients_exact A P cf h.plan h.pre h.maxVel h.ratio h.interval h.pml h.freq h.nb
    h.loc h.last h.big h.smooth bcb grP grV (fun _ => noWf d) (bumpDir x y z j c) 
    (hL.imp id fun h0 => by rw [bumpDir, h0, b0]) (hM.imp id fun h0 => by rw [bumpDir, h0, b0])
    (hB.imp id fun h0 => by rw [bumpDir, h0, b0])
  refine ⟨b, hb, ?_⟩
  have e1 : ∀ e, A.plus e (bumpDir x y z j c) =
      A.withModels (plusModel e A.lam (bump x j c)) (plusModel e A.mu (bump y j c)) (plusModel e A.buoyancy (bump z j c)) A.ampV A.ampP := fun e => by
    have h1 : ∀ a : Option AmpT, (a.map fun a => plusAmp e a fun _ _ _ => 0) = a := fun a => by cases a <;> simp [plusAmp]
    have h2 : ∀ w : Option (WfT d), (w.map fun w => plusWf e w fun _ _ => 0) = w := fun w => by cases w <;> simp [plusWf]
    simp only [UArgs.plus, bumpDir, UWf.plus, h1, h2]
    rfl
  have hG := plan_ok.1 h.plan
  have key : ∀ e, ∀ s < P.nb, (u e s).pair A (outCells P) (grP s) (grV s) (noWf d) =
      (u 0 s).pair A (outCells P) (grP s) (grV s) (noWf d) := fun e s hs => by
    have hF : Fwd A P s cf := ⟨hG, h.pre, hs, h.pml, h.loc s hs, h.last s hs, h.freq, by rw [h.interval]; exact one_pos,
      .inr (by rw [h.ratio, h.interval]; omega)⟩
    have hg' := good_models (lam := plusModel e A.lam (bump x j c)) (mu := plusModel e A.mu (bump y j c))
      (buoyancy := plusModel e A.buoyancy (bump z j c)) (ampP := A.ampP) (ampV := A.ampV) hG h.nb ⟨rfl, rfl⟩ ⟨rfl, rfl⟩ ⟨rfl, rfl⟩ rfl (fun _ => rfl) (.inl h.maxVel)
    obtain ⟨r, w, sig, mv, ms, hc, -, -, -, ht, htv⟩ := C93_elastic_scheme A P s cf h.plan h.pre hs h.pml hF.loc hF.last
      hF.freq hF.interval hF.nt
    obtain ⟨r', w', sig', mv', ms', hc', -, -, -, ht', htv'⟩ := C93_elastic_scheme _ _ s cf (plan_ok.2 hg') h.pre hs h.pml
      hF.loc hF.last hF.freq hF.interval hF.nt
    have e0 : u 0 s = r := by
      have := hu 0 s hs
      rw [e1 0, show plusModel 0 A.lam (bump x j c) = A.lam by simp [plusModel, ModelT.withVal],
        show plusModel 0 A.mu (bump y j c) = A.mu by simp [plusModel, ModelT.withVal],
        show plusModel 0 A.buoyancy (bump z j c) = A.buoyancy by simp [plusModel, ModelT.withVal]] at this
      exact Option.some.inj (Except.ok.inj (this.symm.trans hc))
    have e2 : u e s = r' := by
      have := hu e s hs
      rw [e1 e] at this
      exact Option.some.inj (Except.ok.inj (this.symm.trans hc'))
    have iz : ∀ x : Wavefields d ℝ, x.inner (outCells P) (noWf d) = 0 := fun x => by
      simp [Wavefields.inner, noWf]
    have near : ∀ c₀, ¬Spec.Near c₀ (2 * (P.acc.order / 2 : ℕ) * T) c →
        (∀ i < locCount A.rcvP, locCell A.rcvP s i = some c₀ → P.SameUntil T (r.tracesP i) (r'.tracesP i)) ∧
        ∀ k, ∀ i < locCount (A.rcvV k), locCell (A.rcvV k) s i = some c₀ → P.SameUntil T (r.tracesV k i) (r'.tracesV k i) :=
      fun c₀ hf => by
      obtain ⟨q, q', b1, b2, b3⟩ := C126_elastic_near A P s cf hF (plusModel e A.lam (bump x j c))
        (plusModel e A.mu (bump y j c)) (plusModel e A.buoyancy (bump z j c)) A.ampV A.ampP (.inl h.maxVel) T c₀
        (bump_near e x j A.lam s hf) (bump_near e y j A.mu s hf) (bump_near e z j A.buoyancy s hf)
        (fun k => rel_same (A.srcV k) s c₀ _ (A.ampV k)) (rel_same A.srcP s c₀ _ A.ampP)
      obtain rfl : r = q := Option.some.inj (Except.ok.inj (hc.symm.trans b1))
      obtain rfl : r' = q' := Option.some.inj (Except.ok.inj (hc'.symm.trans b2))
      exact b3
    have lz : ∀ (o : Option LocT) (i : ℕ), locCell (d := d) o s i = none → ∀ f : Fld d ℝ, locValue o s i f = 0 :=
      fun o i e3 f => by
      unfold locValue
      rw [e3]
    rw [e0, e2]
    unfold UShot.pair
    rw [iz, iz, add_zero, add_zero]
    refine congrArg₂ (· + ·) (tracePair_until (T := T) (h.lateP s) (fun i hl => ?_) fun i hl t ht0 => ?_)
      (Finset.sum_congr rfl fun k _ => tracePair_until (T := T) (h.lateV s k) (fun i hl => ?_) fun i hl t ht0 => ?_)
    · have a1 := ht' i hl
      have a2 := ht i hl
      rw [a1, a2, downS_one hg' h.ratio, downS_one hG h.ratio]
      rfl
    · cases e3 : locCell (d := d) A.rcvP s i with
      | none =>
          have a1 := ht' i hl
          have a2 := ht i hl
          rw [a1, a2, downS_one hg' h.ratio, downS_one hG h.ratio]
          show -(if _ then locValue A.rcvP s i _ else 0) / _ = -(if _ then locValue A.rcvP s i _ else 0) / _
          rw [lz _ _ e3, lz _ _ e3, ite_self, ite_self]
      | some c₀ => exact ((near c₀ (h.farP s hs i hl c₀ e3)).1 i hl e3).2 h.ratio t ht0
    · have a1 := htv' k i hl
      have a2 := htv k i hl
      rw [a1, a2, downS_one hg' h.ratio, downS_one hG h.ratio]
      rfl
    · cases e3 : locCell (d := d) (A.rcvV k) s i with
      | none =>
          have a1 := htv' k i hl
          have a2 := htv k i hl
          rw [a1, a2, downS_one hg' h.ratio, downS_one hG h.ratio]
          show (if _ then locValue (A.rcvV k) s i _ else 0) = if _ then locValue (A.rcvV k) s i _ else 0
          rw [lz _ _ e3, lz _ _ e3, ite_self, ite_self]
      | some c₀ => exact ((near c₀ (h.farV s hs k i hl c₀ e3)).2 k i hl e3).2 h.ratio t ht0
  have hconst : HasDerivAt (fun e => ∑ s ∈ Finset.range P.nb, (u e s).pair A (outCells P) (grP s) (grV s) (noWf d)) 0 0 := by
    rw [show (fun e => ∑ s ∈ Finset.range P.nb, (u e s).pair A (outCells P) (grP s) (grV s) (noWf d)) = fun _ =>
      ∑ s ∈ Finset.range P.nb, (u 0 s).pair A (outCells P) (grP s) (grV s) (noWf d) from
      funext fun e => Finset.sum_congr rfl fun s hs => key e s (Finset.mem_range.1 hs)]
    exact hasDerivAt_const _ _
  have := hd.unique hconst
  have sum : ∀ (x : ℝ) (m : ModelT d ℝ) (g : ℕ → Fld d ℝ), (x = 0 ∨ j < m.nb.getD 1 ∧ InShape m.shape c) →
      ∑ i ∈ Finset.range (m.nb.getD 1), ∑ c' ∈ box (fun _ => 0) m.shape, bump x j c i c' * g i c' = x * g j c := by
    intro x m g hx
    rcases hx with rfl | hx
    · simp [b0]
    · exact bump_sum x hx.1 (mem_box.2 hx.2) g
  simp only [bumpDir] at this
  rw [sum x A.lam _ hx, sum y A.mu _ hy, sum z A.buoyancy _ hz, Finset.sum_eq_zero, add_zero] at this
  · exact this
  · intro s _
    have e2 : (A.wf.givenOf ⟨fun _ _ => 0, fun _ _ => 0, fun _ _ => 0, fun _ _ _ => 0, fun _ _ _ => 0⟩).inner (outCells P) (b s).wf = 0 := by
      simp [UWf.givenOf, Wavefields.inner]
    rw [e2, add_zero, ampPair_zero, zero_add]
    exact Finset.sum_eq_zero fun k _ => ampPair_zero _ _

/-- **C140** for `lambda` of `elastic`. -/
theorem C140_elastic_lambda {A : UArgs d} {P : Plan d} {cf : ℤ} {grP : ℕ → ℕ → ℕ → ℝ} {grV : ℕ → Fin d → ℕ → ℕ → ℝ} {T : ℕ}
    {c : Cell d} (h : Unseen A P cf grP grV T c) (bcb : Bool) (j : ℕ) (hg : A.gradL = true) (hj : j < A.lam.nb.getD 1)
    (hc : InShape A.lam.shape c) :
    ∃ b, (∀ s < P.nb, A.backward s bcb (grP s) (grV s) (noWf d) = .ok (some (b s))) ∧ A.lamGrad P b j c = 0 := by
  obtain ⟨b, h1, h2⟩ := h.grads bcb 1 0 0 j (.inl hg) (.inr rfl) (.inr rfl) (.inr ⟨hj, hc⟩) (.inl rfl) (.inl rfl)
  exact ⟨b, h1, by linarith⟩

/-- **C140** for `mu` of `elastic`. -/
theorem C140_elastic_mu {A : UArgs d} {P : Plan d} {cf : ℤ} {grP : ℕ → ℕ → ℕ → ℝ} {grV : ℕ → Fin d → ℕ → ℕ → ℝ} {T : ℕ}
    {c : Cell d} (h : Unseen A P cf grP grV T c) (bcb : Bool) (j : ℕ) (hg : A.gradM = true) (hj : j < A.mu.nb.getD 1)
    (hc : InShape A.mu.shape c) :
    ∃ b, (∀ s < P.nb, A.backward s bcb (grP s) (grV s) (noWf d) = .ok (some (b s))) ∧ A.muGrad P b j c = 0 := by
  obtain ⟨b, h1, h2⟩ := h.grads bcb 0 1 0 j (.inr rfl) (.inl hg) (.inr rfl) (.inl rfl) (.inr ⟨hj, hc⟩) (.inl rfl)
  exact ⟨b, h1, by linarith⟩

/-- **C140** for `buoyancy` of `elastic`. -/
theorem C140_elastic_buoyancy {A : UArgs d} {P : Plan d} {cf : ℤ} {grP : ℕ → ℕ → ℕ → ℝ} {grV : ℕ → Fin d → ℕ → ℕ → ℝ} {T : ℕ}
    {c : Cell d} (h : Unseen A P cf grP grV T c) (bcb : Bool) (j : ℕ) (hg : A.gradB = true) (hj : j < A.buoyancy.nb.getD 1)
    (hc : InShape A.buoyancy.shape c) :
    ∃ b, (∀ s < P.nb, A.backward s bcb (grP s) (grV s) (noWf d) = .ok (some (b s))) ∧ A.buoyancyGrad P b j c = 0 := by
  obtain ⟨b, h1, h2⟩ := h.grads bcb 0 0 1 j (.inr rfl) (.inr rfl) (.inl hg) (.inl rfl) (.inl rfl) (.inr ⟨hj, hc⟩)
  exact ⟨b, h1, by linarith⟩

/-- The models of `exG` in the call of `exX`. -/
noncomputable def exY : UArgs 2 :=
  (exX.between 0 1 (exAt 2 3) (exAt 4 5) exCall).withModels exG.lam exG.mu exG.buoyancy
    (fun k => if k.castSucc = 0 then some exCall else none) none

noncomputable def exYP : Plan 2 :=
  (exXP 0 1).withModels true [(exG.lam, .replicate), (exG.mu, .replicate), (exG.buoyancy, .replicate)]

theorem exY_unseen : Unseen exY exYP 1
    (fun _ _ t => if t ≤ 1 then 1 else 0) (fun _ _ _ t => if t ≤ 1 then 1 else 0) 1 ![3, 0] where
  plan := plan_ok.2 (good_models (exX_fwd 0 1).good (by norm_num [exXP, exPl0]) ⟨rfl, rfl⟩ ⟨rfl, rfl⟩ ⟨rfl, rfl⟩ rfl
    (fun _ => rfl) (.inl (by simp [exX, UArgs.between, exO0, exO1, exO])))
  pre := (exX_fwd 0 1).pre
  maxVel := by simp [exY, UArgs.withModels, exX, UArgs.between, exO0, exO1, exO]
  ratio := rfl
  interval := rfl
  pml := (exX_fwd 0 1).pml
  freq := rfl
  nb := by norm_num [exYP, Plan.withModels, exXP, exPl0]
  loc := fun s hs l hl => by
    have hl : some l ∈ (exX.between 0 1 (exAt 2 3) (exAt 4 5) exCall).setup.srcs ++
      (exX.between 0 1 (exAt 2 3) (exAt 4 5) exCall).setup.rcvs := hl
    rw [between_setup, List.mem_append] at hl
    exact Acoustic.exAt_whole (hl.imp (oneAt_mem _ _ _).1 (oneAt_mem _ _ _).1) hs
  last := fun _ _ k => .inr (.inl (by
    show ((![(0, 7), (0, 9)] : Fin 2 → ℤ × ℤ) k).2 = (![7, 9] : Fin 2 → ℤ) k
    revert k
    decide))
  big := fun k => by fin_cases k <;> decide +kernel
  smooth := fun s _ => by
    have h := exSmooth exYP s fun k => by fin_cases k <;> decide +kernel
    exact ⟨h.rfmax, h.mu, h.buoyancy, h.rho, h.sum⟩
  lateP := fun _ _ t ht => if_neg (by omega)
  lateV := fun _ _ _ t ht => if_neg (by omega)
  farP := fun s hs i hi => by cases hi
  farV := fun s hs k i hi c₀ hc => by
    fin_cases k
    · cases hi
    · exact Acoustic.exAt_far (i := i) hi hs hc

/-- The gradient of the first two samples is zero in a cell five cells from the receiver. -/
example : ∃ b : ℕ → UGrad 2, exY.backward 1 false (fun _ t => if t ≤ 1 then 1 else 0)
    (fun _ _ t => if t ≤ 1 then 1 else 0) (noWf 2) = .ok (some (b 1)) ∧ exY.muGrad exYP b 0 ![3, 0] = 0 := by
  obtain ⟨b, h1, h2⟩ := C140_elastic_mu exY_unseen false 0 rfl one_pos (fun k => by fin_cases k <;> decide)
  exact ⟨b, h1 1 (by norm_num [exYP, Plan.withModels, exXP, exPl0]), h2⟩

end Dw.Elastic

namespace Dw.Born

open Setup Resample Scalar

variable {d : ℕ}

/-- The hypotheses of C96, and a cell that the receivers of both wavefields do not see until sample `T`. -/
structure Unseen (A : UArgs d) (P : Plan d) (cf : ℤ) (gr grsc : ℕ → ℕ → ℕ → ℝ) (T : ℕ) (c : Cell d) : Prop where
  plan : A.setup.plan = .ok P
  maxVel : A.opts.maxVel ≠ none
  ratio : P.ratio = 1
  interval : P.interval = 1
  pml : PmlOk P
  freq : checkCallbackFrequency A.opts.callbackFreq = .ok cf
  nb : 0 < P.nb
  loc : ∀ s < P.nb, ∀ l, A.src = some l ∨ A.rcv = some l ∨ A.bgRcv = some l → WholeIgnored d l s
  late : ∀ s i t, T < t → gr s i t = 0
  lateSc : ∀ s i t, T < t → grsc s i t = 0
  far : ∀ s < P.nb, ∀ i < locCount A.bgRcv, ∀ c₀, locCell A.bgRcv s i = some c₀ → ¬Spec.Near c₀ ((P.acc.order / 2 : ℕ) * T) c
  farSc : ∀ s < P.nb, ∀ i < locCount A.rcv, ∀ c₀, locCell A.rcv s i = some c₀ → ¬Spec.Near c₀ ((P.acc.order / 2 : ℕ) * T) c

theorem Unseen.grads {A : UArgs d} {P : Plan d} {cf : ℤ} {gr grsc : ℕ → ℕ → ℕ → ℝ} {T : ℕ}
    {c : Cell d} (h : Unseen A P cf gr grsc T c) (full bcb : Bool) (x y : ℝ) (j : ℕ)
    (hV : A.gradV = true ∨ x = 0) (hS : A.gradS = true ∨ y = 0)
    (hx : x = 0 ∨ j < A.v.nb.getD 1 ∧ InShape A.v.shape c)
    (hy : y = 0 ∨ j < A.scatter.nb.getD 1 ∧ InShape A.scatter.shape c) :
    ∃ b, (∀ s < P.nb, A.backward s full bcb (gr s) (grsc s) (Wavefields.zero d) (Wavefields.zero d) = .ok (some (b s))) ∧
      x * A.vGrad P b j c + y * A.scatterGrad P b j c = 0 := by
  have b0 : (bump 0 j c : ℕ → Fld d ℝ) = fun _ _ => 0 := by
    funext j' c'
    simp [bump]
  let D : UDir d := ⟨bump x j c, bump y j c, fun _ _ _ => 0, fun _ => Wavefields.zero d, fun _ => Wavefields.zero d⟩
  obtain ⟨u, b, hu, hb, hd⟩ := C96_born_gradients_exact A P cf h.plan h.maxVel h.ratio h.interval h.pml h.freq h.nb
    h.loc full bcb gr grsc (fun _ => Wavefields.zero d) (fun _ => Wavefields.zero d) D
    (hV.imp id fun h0 => by simp only [D]; rw [h0, b0]) (hS.imp id fun h0 => by simp only [D]; rw [h0, b0]) (.inr ⟨rfl, rfl⟩)
  refine ⟨b, hb, ?_⟩
  have e1 : ∀ e, A.plus e D = A.withModels (plusModel e A.v (bump x j c)) (plusModel e A.scatter (bump y j c)) A.amps := fun e => by
    have h1 : ∀ a : Option AmpT, (a.map fun a => plusAmp e a fun _ _ _ => 0) = a := fun a => by cases a <;> simp [plusAmp]
    have h2 : ∀ w : Option (WfT d), (w.map fun w => plusWf e w fun _ _ => 0) = w := fun w => by cases w <;> simp [plusWf]
    simp only [UArgs.plus, D, UWf.plus, Wavefields.zero, h1, h2]
    rfl
  have hG := plan_ok.1 h.plan
  have key : ∀ e, ∀ s < P.nb, (u e s).pair A (outCells P) (gr s) (grsc s) (Wavefields.zero d) (Wavefields.zero d) =
      (u 0 s).pair A (outCells P) (gr s) (grsc s) (Wavefields.zero d) (Wavefields.zero d) := fun e s hs => by
    have hF : Fwd A P s cf := ⟨hG, hs, h.pml, h.loc s hs, h.freq, by rw [h.interval]; exact one_pos,
      .inr (by rw [h.ratio, h.interval]; omega)⟩
    have hg' := good_models (v := plusModel e A.v (bump x j c)) (scatter := plusModel e A.scatter (bump y j c))
      (amps := A.amps) hG h.nb ⟨rfl, rfl⟩ ⟨rfl, rfl⟩ rfl (.inl h.maxVel)
    obtain ⟨r, _, _, _, _, _, _, hc, -, -, -, -, -, -, ht, htv⟩ := C91_born_scheme A P s cf h.plan hs h.pml hF.loc
      hF.freq hF.interval hF.nt
    obtain ⟨r', _, _, _, _, _, _, hc', -, -, -, -, -, -, ht', htv'⟩ := C91_born_scheme _ _ s cf (plan_ok.2 hg') hs h.pml
      hF.loc hF.freq hF.interval hF.nt
    have e0 : u 0 s = r := by
      have := hu 0 s hs
      rw [e1 0, show plusModel 0 A.v (bump x j c) = A.v by simp [plusModel, ModelT.withVal],
        show plusModel 0 A.scatter (bump y j c) = A.scatter by simp [plusModel, ModelT.withVal]] at this
      exact Option.some.inj (Except.ok.inj (this.symm.trans hc))
    have e2 : u e s = r' := by
      have := hu e s hs
      rw [e1 e] at this
      exact Option.some.inj (Except.ok.inj (this.symm.trans hc'))
    have iz : ∀ x : Wavefields d ℝ, x.inner (outCells P) (Wavefields.zero d) = 0 := fun x => by
      simp [Wavefields.inner, Wavefields.zero]
    have near : ∀ c₀, ¬Spec.Near c₀ ((P.acc.order / 2 : ℕ) * T) c →
        (∀ i < locCount A.bgRcv, locCell A.bgRcv s i = some c₀ → P.SameUntil T (r.bgTraces i) (r'.bgTraces i)) ∧
        ∀ i < locCount A.rcv, locCell A.rcv s i = some c₀ → P.SameUntil T (r.traces i) (r'.traces i) :=
      fun c₀ hf => by
      obtain ⟨q, q', b1, b2, b3⟩ := C126_born_near A P s cf hF (plusModel e A.v (bump x j c))
        (plusModel e A.scatter (bump y j c)) A.amps (.inl h.maxVel) T c₀ (bump_near e x j A.v s hf)
        (bump_near e y j A.scatter s hf) (rel_same A.src s c₀ _ A.amps)
      obtain rfl : r = q := Option.some.inj (Except.ok.inj (hc.symm.trans b1))
      obtain rfl : r' = q' := Option.some.inj (Except.ok.inj (hc'.symm.trans b2))
      exact b3
    have z : ∀ (o : Option LocT) (i : ℕ), locCell (d := d) o s i = none → ∀ f : Fld d ℝ, locValue o s i f = 0 :=
      fun o i e3 f => by
      unfold locValue
      rw [e3]
    rw [e0, e2]
    unfold UShot.pair
    rw [iz, iz, iz, iz, add_zero, add_zero, add_zero, add_zero]
    refine congrArg₂ (· + ·) (tracePair_until (T := T) (h.late s) (fun i hl => ?_) fun i hl t ht0 => ?_)
      (tracePair_until (T := T) (h.lateSc s) (fun i hl => ?_) fun i hl t ht0 => ?_)
    · have a1 := ht' i hl
      have a2 := ht i hl
      rw [a1, a2, downS_one hg' h.ratio, downS_one hG h.ratio]
      rfl
    · cases e3 : locCell (d := d) A.bgRcv s i with
      | none =>
          have a1 := ht' i hl
          have a2 := ht i hl
          rw [a1, a2, downS_one hg' h.ratio, downS_one hG h.ratio]
          show (if _ then locValue A.bgRcv s i _ else 0) = if _ then locValue A.bgRcv s i _ else 0
          rw [z _ _ e3, z _ _ e3, ite_self, ite_self]
      | some c₀ => exact ((near c₀ (h.far s hs i hl c₀ e3)).1 i hl e3).2 h.ratio t ht0
    · have a1 := htv' i hl
      have a2 := htv i hl
      rw [a1, a2, downS_one hg' h.ratio, downS_one hG h.ratio]
      rfl
    · cases e3 : locCell (d := d) A.rcv s i with
      | none =>
          have a1 := htv' i hl
          have a2 := htv i hl
          rw [a1, a2, downS_one hg' h.ratio, downS_one hG h.ratio]
          show (if _ then locValue A.rcv s i _ else 0) = if _ then locValue A.rcv s i _ else 0
          rw [z _ _ e3, z _ _ e3, ite_self, ite_self]
      | some c₀ => exact ((near c₀ (h.farSc s hs i hl c₀ e3)).2 i hl e3).2 h.ratio t ht0
  have hconst : HasDerivAt (fun e => ∑ s ∈ Finset.range P.nb,
      (u e s).pair A (outCells P) (gr s) (grsc s) (Wavefields.zero d) (Wavefields.zero d)) 0 0 := by
    rw [show (fun e => ∑ s ∈ Finset.range P.nb,
      (u e s).pair A (outCells P) (gr s) (grsc s) (Wavefields.zero d) (Wavefields.zero d)) = fun _ =>
      ∑ s ∈ Finset.range P.nb, (u 0 s).pair A (outCells P) (gr s) (grsc s) (Wavefields.zero d) (Wavefields.zero d) from
      funext fun e => Finset.sum_congr rfl fun s hs => key e s (Finset.mem_range.1 hs)]
    exact hasDerivAt_const _ _
  have := hd.unique hconst
  have sum : ∀ (x : ℝ) (m : ModelT d ℝ) (g : ℕ → Fld d ℝ), (x = 0 ∨ j < m.nb.getD 1 ∧ InShape m.shape c) →
      ∑ i ∈ Finset.range (m.nb.getD 1), ∑ c' ∈ box (fun _ => 0) m.shape, bump x j c i c' * g i c' = x * g j c := by
    intro x m g hx
    rcases hx with rfl | hx
    · simp [b0]
    · exact bump_sum x hx.1 (mem_box.2 hx.2) g
  simp only [D] at this
  rw [sum x A.v _ hx, sum y A.scatter _ hy, Finset.sum_eq_zero, add_zero] at this
  · exact this
  · intro s _
    have e2 : ∀ w : UWf d, w.givenOf (Wavefields.zero d) = Wavefields.zero d := fun w => by
      simp [UWf.givenOf, Wavefields.zero]
    rw [e2, e2, Wavefields.zero_inner, Wavefields.zero_inner, ampPair_zero, add_zero, add_zero]

/-- **C140** for the velocity of `scalar_born`. -/
theorem C140_born_velocity {A : UArgs d} {P : Plan d} {cf : ℤ} {gr grsc : ℕ → ℕ → ℕ → ℝ} {T : ℕ}
    {c : Cell d} (h : Unseen A P cf gr grsc T c) (full bcb : Bool) (j : ℕ) (hg : A.gradV = true) (hj : j < A.v.nb.getD 1)
    (hc : InShape A.v.shape c) :
    ∃ b, (∀ s < P.nb, A.backward s full bcb (gr s) (grsc s) (Wavefields.zero d) (Wavefields.zero d) = .ok (some (b s))) ∧
      A.vGrad P b j c = 0 := by
  obtain ⟨b, h1, h2⟩ := h.grads full bcb 1 0 j (.inl hg) (.inr rfl) (.inr ⟨hj, hc⟩) (.inl rfl)
  exact ⟨b, h1, by linarith⟩

/-- **C140** for the scattering potential of `scalar_born`. -/
theorem C140_born_scatter {A : UArgs d} {P : Plan d} {cf : ℤ} {gr grsc : ℕ → ℕ → ℕ → ℝ} {T : ℕ}
    {c : Cell d} (h : Unseen A P cf gr grsc T c) (full bcb : Bool) (j : ℕ) (hg : A.gradS = true)
    (hj : j < A.scatter.nb.getD 1) (hc : InShape A.scatter.shape c) :
    ∃ b, (∀ s < P.nb, A.backward s full bcb (gr s) (grsc s) (Wavefields.zero d) (Wavefields.zero d) = .ok (some (b s))) ∧
      A.scatterGrad P b j c = 0 := by
  obtain ⟨b, h1, h2⟩ := h.grads full bcb 0 1 j (.inr rfl) (.inl hg) (.inl rfl) (.inr ⟨hj, hc⟩)
  exact ⟨b, h1, by linarith⟩

/-- The receivers of the background wavefield are at `[2, 3]`, those of the scattered wavefield at `[4, 5]`. -/
theorem exX_unseen : Unseen exX exXP 1 (fun _ _ t => if t ≤ 1 then 1 else 0) (fun _ _ t => if t ≤ 1 then 1 else 0) 1 ![3, 0] where
  plan := plan_ok.2 exX_fwd.good
  maxVel := by simp [exX, exO0, exO1, exO]
  ratio := rfl
  interval := rfl
  pml := exX_fwd.pml
  freq := rfl
  nb := by norm_num [exXP, exPl0]
  loc := fun s hs l hl => by
    refine Acoustic.exAt_whole ?_ hs
    rcases hl with hl | hl | hl
    · exact .inl (Option.some.inj hl).symm
    · exact .inr (Option.some.inj hl).symm
    · exact .inl (Option.some.inj hl).symm
  late := fun _ _ t ht => if_neg (by omega)
  lateSc := fun _ _ t ht => if_neg (by omega)
  far := fun s hs i hi c₀ hc => by
    obtain rfl : i = 0 := Nat.lt_one_iff.1 hi
    have hs : s < 2 := hs
    have hc : locCell (some (exAt 2 3)) s 0 = some c₀ := hc
    interval_cases s
    · unfold locCell at hc
      dsimp only at hc
      rw [if_pos (show (exAt 2 3).Ignored 2 0 0 from fun k _ => rfl)] at hc
      cases hc
    · obtain rfl := Option.some.inj ((Elastic.exAt_cell (by decide +kernel)).symm.trans hc)
      intro h
      exact absurd (h 1) (by decide +kernel)
  farSc := fun s hs i hi c₀ hc h => Acoustic.exAt_far (i := i) hi hs hc (h.mono (by decide +kernel))

/-- The gradient of the first two samples. -/
example : ∃ b : ℕ → UGrad 2, exX.backward 1 false false (fun _ t => if t ≤ 1 then 1 else 0)
    (fun _ t => if t ≤ 1 then 1 else 0) (Wavefields.zero 2) (Wavefields.zero 2) = .ok (some (b 1)) ∧
    exX.scatterGrad exXP b 0 ![3, 0] = 0 := by
  obtain ⟨b, h1, h2⟩ := C140_born_scatter exX_unseen false false 0 rfl one_pos (fun k => by fin_cases k <;> decide)
  exact ⟨b, h1 1 (by norm_num [exXP, exPl0]), h2⟩

end Dw.Born
