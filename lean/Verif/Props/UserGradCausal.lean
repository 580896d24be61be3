import Verif.Props.UserGradLinear
import Verif.Props.UserDelayMore

/-!
# C142: gradients of source samples are zero after the samples of the traces that are used
-/

namespace Dw.Setup

open Scalar Resample

variable {d : ℕ}

theorem until_plus (a : Option AmpT) {s T : ℕ} {δ : ℕ → ℕ → ℕ → ℝ} (hδ : ∀ i, ∀ t < T, δ s i t = 0) :
    Option.Rel (AmpT.Until s ((a.map AmpT.nt).getD 0) T) a (a.map fun a => plusAmp 1 a δ) := by
  cases a with
  | none => exact .none
  | some a =>
      refine .some ⟨⟨rfl, rfl, rfl⟩, fun i _ t ht => ?_⟩
      simp [plusAmp, hδ i t ht]

theorem ampBump_before {s i t T : ℕ} (h : T ≤ t) (j t' : ℕ) (ht : t' < T) : ampBump s i t s j t' = 0 := by
  have : t' ≠ t := by omega
  simp [ampBump, this]

/-- Traces of the same samples up to `T` give the same samples up to `T`. -/
theorem traces_to {A A' : SetupArgs d} {P : Plan d} (h : A.Good P) (h' : A'.Good P) (h1 : P.ratio = 1) {tt : Bool}
    {x x' : ℕ → ℝ} {N t : ℕ} (hx : x' t = x t) :
    (downS P tt ⟨P.nt.toNat, fun t => if t < N then x' t else 0⟩).val t =
      (downS P tt ⟨P.nt.toNat, fun t => if t < N then x t else 0⟩).val t := by
  rw [downS_one h h1, downS_one h' h1]
  show (if t < N then x' t else 0) = if t < N then x t else 0
  rw [hx]

theorem map_plus_zero (e : ℝ) (a : Option AmpT) : (a.map fun a => plusAmp e a fun _ _ _ => 0) = a := by
  cases a <;> simp [plusAmp]

theorem map_zero_plus (a : Option AmpT) (δ : ℕ → ℕ → ℕ → ℝ) : (a.map fun a => plusAmp 0 a δ) = a := by
  cases a <;> simp [plusAmp]

theorem wf_plus_zero (e : ℝ) (w : Option (WfT d)) : (w.map fun w => plusWf e w fun _ _ => 0) = w := by
  cases w <;> simp [plusWf]

theorem model_plus_zero (e : ℝ) (m : ModelT d ℝ) : plusModel e m (fun _ _ => 0) = m := by
  simp [plusModel, ModelT.withVal]

end Dw.Setup

namespace Dw.Scalar

open Setup Resample

variable {d : ℕ}

/-- **C142** If the given gradients of the traces are zero after sample `T`, the gradients of the source amplitudes of `scalar`
are zero from sample `T` on. -/
theorem C142_scalar_causal (A : UArgs d) (P : Plan d) (s : ℕ) (cf : ℤ) (h : Fwd A P s cf) (h1 : P.ratio = 1) (bcb : Bool)
    (gr : ℕ → ℕ → ℝ) (T : ℕ) (hT : ∀ i t, T < t → gr i t = 0) (hnt : P.ratio * P.interval ≤ P.nt ∨ P.nt ≤ 0) :
    ∃ b, A.backward s bcb gr (Wavefields.zero d) = .ok (some b) ∧
      ∀ q, A.amps = some q → ∀ i < q.n, ∀ t < q.nt, T ≤ t → b.amps i t = 0 := by
  obtain ⟨-, b, -, hb, -⟩ := C95_source_gradients A P cf (plan_ok.2 h.good) h.interval h.pml h.freq hnt s h.lt h.src h.rcv
    bcb gr (Wavefields.zero d) ⟨fun _ _ => 0, fun _ _ _ => 0, fun _ => Wavefields.zero d⟩ rfl
  refine ⟨b, hb, fun q hq i hi t ht hTt => ?_⟩
  let D : UDir d := ⟨fun _ _ => 0, ampBump s i t, fun _ => Wavefields.zero d⟩
  obtain ⟨u, b', hu, hb', hd⟩ := C95_source_gradients A P cf (plan_ok.2 h.good) h.interval h.pml h.freq hnt s h.lt h.src h.rcv
    bcb gr (Wavefields.zero d) D rfl
  obtain rfl := Option.some.inj (Except.ok.inj (hb.symm.trans hb'))
  have e1 : ∀ e, A.plus e D = A.withAmps (A.amps.map fun a => plusAmp e a (ampBump s i t)) A.nt := fun e => by
    simp only [UArgs.plus, D, Wavefields.zero, wf_plus_zero, mul_zero, add_zero]
    rfl
  have hg := plus_good_zero h.good 1 D rfl
  have hu1 := hu 1
  have hu0 := hu 0
  rw [e1] at hg hu1 hu0
  rw [map_zero_plus] at hu0
  obtain ⟨r, w, psi, zeta, hc, hw, hi', hE, ht'⟩ := C90_scalar_scheme A P s cf (plan_ok.2 h.good) h.lt h.pml h.src h.rcv
    h.freq h.interval h.nt
  obtain ⟨r', w', psi', zeta', hc', hw', hi'', hE', ht''⟩ := C90_scalar_scheme _ P s cf (plan_ok.2 hg) h.lt h.pml
    h.src h.rcv h.freq h.interval h.nt
  have e0 : u 0 = r := Option.some.inj (Except.ok.inj (hu0.symm.trans hc))
  have e2 : u 1 = r' := Option.some.inj (Except.ok.inj (hu1.symm.trans hc'))
  have e := hw.before hw' (T := T) (fun t ht => locSum_until h.good hg h1 h1 0 rfl rfl (until_plus A.amps
    fun j t' => ampBump_before hTt j t') ht)
    (startsFrom_zero (P := P) (w := ⟨A.wfc, A.wfp, A.psi, A.zeta⟩) hw'.outside hw.outside hi'' hi')
  have hn : A.nRcv = locCount A.rcv := by
    unfold UArgs.nRcv locCount
    cases A.rcv <;> rfl
  have key : (u 1).pair A.nRcv (outCells P) gr (Wavefields.zero d) = (u 0).pair A.nRcv (outCells P) gr (Wavefields.zero d) := by
    have iz : ∀ x : Wavefields d ℝ, x.inner (outCells P) (Wavefields.zero d) = 0 := fun x => by
      simp [Wavefields.inner, Wavefields.zero]
    rw [e0, e2, hn]
    unfold UShot.pair
    rw [iz, iz, add_zero, add_zero]
    refine tracePair_until (T := T) hT (fun i hl => ?_) fun i hl t ht0 => ?_
    · have a1 := ht'' i hl
      have a2 := ht' i hl
      rw [a1, a2, downS_one hg h1, downS_one h.good h1]
    · have a1 := ht'' i hl
      have a2 := ht' i hl
      rw [a1, a2]
      exact traces_to h.good hg h1 (by rw [(e t ht0).2.1]; rfl)
  have := hd 1
  have e3 : A.givenOf (Wavefields.zero d) = Wavefields.zero d := by
    simp [UArgs.givenOf, Wavefields.zero]
  have e4 : A.ampPair (ampBump s i t s) b.amps = b.amps i t :=
    ampPair_bump A.amps s b.amps (by rw [hq]; rfl) (by rw [hq]; rfl) hi ht
  simp only [D] at this
  rw [key, e3, Wavefields.zero_inner, e4] at this
  linarith

/-- The gradient of the first three samples of the trace, for the source samples from the third on. -/
example : ∃ b, (exV 3).backward 0 false (fun _ t => if t ≤ 2 then 1 + t else 0) (Wavefields.zero 2) = .ok (some b) ∧
    b.amps 0 2 = 0 ∧ b.amps 0 4 = 0 := by
  obtain ⟨b, h1, h2⟩ := C142_scalar_causal (exV 3) _ 0 1 exV_fwd rfl false (fun _ t => if t ≤ 2 then 1 + t else 0) 2
    (fun _ t ht => if_neg (by omega)) (.inl (by norm_num [exQ]))
  exact ⟨b, h1, h2 _ rfl 0 one_pos 2 (by norm_num) le_rfl, h2 _ rfl 0 one_pos 4 (by norm_num) (by norm_num)⟩

end Dw.Scalar

namespace Dw.Born

open Setup Resample Scalar

variable {d : ℕ}

/-- **C142** for `scalar_born`. -/
theorem C142_born_causal (A : UArgs d) (P : Plan d) (s : ℕ) (cf : ℤ) (h : Fwd A P s cf) (h1 : P.ratio = 1) (full bcb : Bool)
    (hfull : (A.gradV || full) = true) (gr gs : ℕ → ℕ → ℝ) (T : ℕ) (hT : ∀ i t, T < t → gr i t = 0)
    (hT' : ∀ i t, T < t → gs i t = 0) (hnt : P.ratio * P.interval ≤ P.nt ∨ P.nt ≤ 0) :
    ∃ b, A.backward s full bcb gr gs (Wavefields.zero d) (Wavefields.zero d) = .ok (some b) ∧
      ∀ q, A.amps = some q → ∀ i < q.n, ∀ t < q.nt, T ≤ t → b.amps i t = 0 := by
  obtain ⟨-, b, -, hb, -⟩ := C97_born_source_gradients A P cf (plan_ok.2 h.good) h.interval h.pml h.freq hnt s h.lt h.loc
    full bcb gr gs (Wavefields.zero d) (Wavefields.zero d)
    ⟨fun _ _ => 0, fun _ _ => 0, fun _ _ _ => 0, fun _ => Wavefields.zero d, fun _ => Wavefields.zero d⟩ rfl rfl (.inl hfull)
  refine ⟨b, hb, fun q hq i hi t ht hTt => ?_⟩
  let D : UDir d := ⟨fun _ _ => 0, fun _ _ => 0, ampBump s i t, fun _ => Wavefields.zero d, fun _ => Wavefields.zero d⟩
  obtain ⟨u, b', hu, hb', hd⟩ := C97_born_source_gradients A P cf (plan_ok.2 h.good) h.interval h.pml h.freq hnt s h.lt h.loc
    full bcb gr gs (Wavefields.zero d) (Wavefields.zero d) D rfl rfl (.inl hfull)
  obtain rfl := Option.some.inj (Except.ok.inj (hb.symm.trans hb'))
  have e1 : ∀ e, A.plus e D = A.withAmps (A.amps.map fun a => plusAmp e a (ampBump s i t)) A.opts.nt := fun e => by
    simp only [UArgs.plus, D, UWf.plus, Wavefields.zero, wf_plus_zero, model_plus_zero]
    rfl
  have hg := plus_good_zero h.good 1 D rfl rfl
  have hu1 := hu 1
  have hu0 := hu 0
  rw [e1] at hg hu1 hu0
  rw [map_zero_plus] at hu0
  obtain ⟨r, w, psi, zeta, wsc, ps, ze, hc, hw, hsc, hi1, hi2, hE, hE2, hbt, htr⟩ := C91_born_scheme A P s cf (plan_ok.2 h.good)
    h.lt h.pml h.loc h.freq h.interval h.nt
  obtain ⟨r', w', psi', zeta', wsc', ps', ze', hc', hw', hsc', hi1', hi2', hE', hE2', hbt', htr'⟩ := C91_born_scheme _ P s cf
    (plan_ok.2 hg) h.lt h.pml h.loc h.freq h.interval h.nt
  have e0 : u 0 = r := Option.some.inj (Except.ok.inj (hu0.symm.trans hc))
  have e2 : u 1 = r' := Option.some.inj (Except.ok.inj (hu1.symm.trans hc'))
  have hq' := fun t (ht : t < T) => locSum_until h.good hg h1 h1 (tt := A.opts.timeTaper) (o := A.src) 0 rfl rfl
    (until_plus A.amps fun j t' => ampBump_before (s := s) (i := i) hTt j t') ht
  have e := hw.before hw' (T := T) hq' (startsFrom_zero (P := P) (w := A.wf) hw'.outside hw.outside hi1' hi1)
  have e' := hsc.before hsc' (T := T) hq' e (startsFrom_zero (P := P) (w := A.wfsc) hsc'.outside hsc.outside hi2' hi2)
  have key : (u 1).pair A (outCells P) gr gs (Wavefields.zero d) (Wavefields.zero d) =
      (u 0).pair A (outCells P) gr gs (Wavefields.zero d) (Wavefields.zero d) := by
    have iz : ∀ x : Wavefields d ℝ, x.inner (outCells P) (Wavefields.zero d) = 0 := fun x => by
      simp [Wavefields.inner, Wavefields.zero]
    have k1 : tracePair (locCount A.bgRcv) gr r'.bgTraces = tracePair (locCount A.bgRcv) gr r.bgTraces := by
      refine tracePair_until (T := T) hT (fun i hl => ?_) fun i hl t ht0 => ?_
      · have a1 := hbt' i hl
        have a2 := hbt i hl
        rw [a1, a2, downS_one hg h1, downS_one h.good h1]
      · have a1 := hbt' i hl
        have a2 := hbt i hl
        rw [a1, a2]
        exact traces_to h.good hg h1 (by rw [(e t ht0).2.1]; rfl)
    have k2 : tracePair (locCount A.rcv) gs r'.traces = tracePair (locCount A.rcv) gs r.traces := by
      refine tracePair_until (T := T) hT' (fun i hl => ?_) fun i hl t ht0 => ?_
      · have a1 := htr' i hl
        have a2 := htr i hl
        rw [a1, a2, downS_one hg h1, downS_one h.good h1]
      · have a1 := htr' i hl
        have a2 := htr i hl
        rw [a1, a2]
        exact traces_to h.good hg h1 (by rw [(e' t ht0).2.1]; rfl)
    rw [e0, e2]
    unfold UShot.pair
    rw [iz, iz, iz, iz, k1, k2]
  have := hd 1
  have e4 : ampPair A.amps (ampBump s i t s) b.amps = b.amps i t :=
    ampPair_bump A.amps s b.amps (by rw [hq]; rfl) (by rw [hq]; rfl) hi ht
  simp only [D] at this
  rw [key, givenOf_zero, givenOf_zero, Wavefields.zero_inner, Wavefields.zero_inner, e4] at this
  linarith

/-- Both kinds of traces up to the third sample. -/
example : ∃ b, (exG true).backward 1 false true (fun _ t => if t ≤ 2 then 1 else 0) (fun i t => if t ≤ 2 then 1 + i else 0)
      (Wavefields.zero 2) (Wavefields.zero 2) = .ok (some b) ∧ b.amps 0 2 = 0 ∧ b.amps 1 4 = 0 := by
  obtain ⟨b, h1, h2⟩ := C142_born_causal (exG true) _ 1 1 (exG_fwd true 1 (by decide)) (by norm_num [exGP, exPl1]) false true rfl
    (fun _ t => if t ≤ 2 then 1 else 0) (fun i t => if t ≤ 2 then 1 + i else 0) 2 (fun _ t ht => if_neg (by omega))
    (fun _ t ht => if_neg (by omega)) (.inl (by norm_num [exGP, exPl1, exPl]))
  exact ⟨b, h1, h2 _ rfl 0 (by norm_num [Setup.exAmp]) 2 (by norm_num [Setup.exAmp]) le_rfl,
    h2 _ rfl 1 (by norm_num [Setup.exAmp]) 4 (by norm_num [Setup.exAmp]) (by norm_num)⟩

end Dw.Born

namespace Dw.Acoustic

open Setup Resample Scalar

variable {d : ℕ}

theorem acoustic_causal_dir {A : UArgs d} {P : Plan d} {s : ℕ} {cf : ℤ} (h : Fwd A P s cf) (h1 : P.ratio = 1)
    (hbig : ∀ k, (P.acc.pad : ℤ) + 1 ≤ (P.ext k).2 - (P.ext k).1 + P.w1 k) (bcb : Bool)
    {grP : ℕ → ℕ → ℝ} {grV : Fin d → ℕ → ℕ → ℝ} {T : ℕ} (hT : ∀ i t, T < t → grP i t = 0)
    (hT' : ∀ k i t, T < t → grV k i t = 0) (hnt : P.ratio * P.interval ≤ P.nt ∨ P.nt ≤ 0) {b : UGrad d}
    (hb : A.backward s bcb grP grV (noWf d) = .ok (some b)) {δp : ℕ → ℕ → ℕ → ℝ} {δv : Fin d → ℕ → ℕ → ℕ → ℝ}
    (hp : ∀ i, ∀ t < T, δp s i t = 0) (hv : ∀ k i, ∀ t < T, δv k s i t = 0) :
    ampPair A.ampP (δp s) b.ampP + ∑ k, ampPair (A.ampV k) (δv k s) (b.ampV k) = 0 := by
  let D : UDir d := ⟨fun _ _ => 0, fun _ _ => 0, δp, δv, fun _ => noWf d⟩
  obtain ⟨u, b', hu, hb', hd⟩ := C99_acoustic_source_gradients A P cf (plan_ok.2 h.good) h.pre h.interval h.pml h.freq hnt s
    h.lt h.loc h.last hbig bcb grP grV (noWf d) D rfl rfl
  obtain rfl := Option.some.inj (Except.ok.inj (hb.symm.trans hb'))
  have e1 : ∀ e, A.plus e D = A.withAmps (A.ampP.map fun a => plusAmp e a δp) (fun k => (A.ampV k).map fun a => plusAmp e a (δv k)) A.opts.nt := fun e => by
    simp only [UArgs.plus, D, UWf.plus, noWf, wf_plus_zero, model_plus_zero]
    rfl
  have hg := plus_good_zero h.good 1 D rfl rfl
  have hu1 := hu 1
  have hu0 := hu 0
  rw [e1] at hg hu1 hu0
  simp only [map_zero_plus] at hu0
  obtain ⟨r, p, v, phi, psi, hc, hw, hi, hE, hpt, hvt⟩ := C92_acoustic_scheme A P s cf (plan_ok.2 h.good) h.pre
    h.lt h.pml h.loc h.last h.freq h.interval h.nt
  obtain ⟨r', p', v', phi', psi', hc', hw', hi', hE', hpt', hvt'⟩ := C92_acoustic_scheme _ P s cf (plan_ok.2 hg) h.pre
    h.lt h.pml h.loc h.last h.freq h.interval h.nt
  have e0 : u 0 = r := Option.some.inj (Except.ok.inj (hu0.symm.trans hc))
  have e2 : u 1 = r' := Option.some.inj (Except.ok.inj (hu1.symm.trans hc'))
  have e := hw.before hw' (T := T) (fun t ht => ⟨locSum_until h.good hg h1 h1 0 rfl rfl (until_plus A.ampP hp) ht, funext fun k =>
    locSum_until h.good hg h1 h1 (k + 1) (ofFn_get.2 ⟨k.isLt, rfl⟩) (ofFn_get.2 ⟨k.isLt, rfl⟩) (until_plus (A.ampV k) (hv k)) ht⟩)
    (Starts.eq (P := P) (w := A.wf) hw.outside hw'.outside hi hi')
  have key : (u 1).pair A (outCells P) grP grV (noWf d) = (u 0).pair A (outCells P) grP grV (noWf d) := by
    have iz : ∀ x : Wavefields d ℝ, x.inner (outCells P) (noWf d) = 0 := fun x => by
      simp [Wavefields.inner, noWf]
    have k1 : tracePair (locCount A.rcvP) grP r'.tracesP = tracePair (locCount A.rcvP) grP r.tracesP := by
      refine tracePair_until (T := T) hT (fun i hl => ?_) fun i hl t ht0 => ?_
      · have a1 := hpt' i hl
        have a2 := hpt i hl
        rw [a1, a2, downS_one hg h1, downS_one h.good h1]
      · have a1 := hpt' i hl
        have a2 := hpt i hl
        rw [a1, a2]
        exact traces_to h.good hg h1 (by rw [(e t ht0).1]; rfl)
    have k2 : ∀ k, tracePair (locCount (A.rcvV k)) (grV k) (r'.tracesV k) = tracePair (locCount (A.rcvV k)) (grV k) (r.tracesV k) :=
        fun k => by
      refine tracePair_until (T := T) (hT' k) (fun i hl => ?_) fun i hl t ht0 => ?_
      · have a1 := hvt' k i hl
        have a2 := hvt k i hl
        rw [a1, a2, downS_one hg h1, downS_one h.good h1]
      · have a1 := hvt' k i hl
        have a2 := hvt k i hl
        rw [a1, a2]
        exact traces_to h.good hg h1 (by rw [(e t ht0).2.1]; rfl)
    rw [e0, e2]
    unfold UShot.pair
    simp only [iz, k1, k2]
  have := hd 1
  simp only [D] at this
  rw [key, givenOf_noWf] at this
  linarith

/-- **C142** for `acoustic`. -/
theorem C142_acoustic_causal (A : UArgs d) (P : Plan d) (s : ℕ) (cf : ℤ) (h : Fwd A P s cf) (h1 : P.ratio = 1)
    (hbig : ∀ k, (P.acc.pad : ℤ) + 1 ≤ (P.ext k).2 - (P.ext k).1 + P.w1 k) (bcb : Bool)
    (grP : ℕ → ℕ → ℝ) (grV : Fin d → ℕ → ℕ → ℝ) (T : ℕ) (hT : ∀ i t, T < t → grP i t = 0)
    (hT' : ∀ k i t, T < t → grV k i t = 0) (hnt : P.ratio * P.interval ≤ P.nt ∨ P.nt ≤ 0) :
    ∃ b, A.backward s bcb grP grV (noWf d) = .ok (some b) ∧
      (∀ q, A.ampP = some q → ∀ i < q.n, ∀ t < q.nt, T ≤ t → b.ampP i t = 0) ∧
      ∀ k q, A.ampV k = some q → ∀ i < q.n, ∀ t < q.nt, T ≤ t → b.ampV k i t = 0 := by
  obtain ⟨-, b, -, hb, -⟩ := C99_acoustic_source_gradients A P cf (plan_ok.2 h.good) h.pre h.interval h.pml h.freq hnt s
    h.lt h.loc h.last hbig bcb grP grV (noWf d) ⟨fun _ _ => 0, fun _ _ => 0, fun _ _ _ => 0, fun _ _ _ _ => 0, fun _ => noWf d⟩ rfl rfl
  refine ⟨b, hb, fun q hq i hi t ht hTt => ?_, fun k q hq i hi t ht hTt => ?_⟩
  · have e := acoustic_causal_dir h h1 hbig bcb hT hT' hnt hb (δp := ampBump s i t) (δv := fun _ _ _ _ => 0)
      (fun j t' => ampBump_before hTt j t') fun _ _ _ _ => rfl
    rwa [Finset.sum_eq_zero fun k _ => ampPair_zero _ _, add_zero,
      ampPair_bump A.ampP s b.ampP (by rw [hq]; rfl) (by rw [hq]; rfl) hi ht] at e
  · have e := acoustic_causal_dir h h1 hbig bcb hT hT' hnt hb (δp := fun _ _ _ => 0)
      (δv := fun k' => if k' = k then ampBump s i t else fun _ _ _ => 0) (fun _ _ _ => rfl) fun k' j t' ht' => by
        by_cases hk : k' = k
        · simp only [hk, if_true]
          exact ampBump_before hTt j t' ht'
        · simp only [hk, if_false]
    rw [ampPair_zero, zero_add, Finset.sum_eq_single k (fun k' _ hk => by
      rw [if_neg hk]
      exact ampPair_zero _ _) (fun hk => absurd (Finset.mem_univ k) hk), if_pos rfl,
      ampPair_bump (A.ampV k) s (b.ampV k) (by rw [hq]; rfl) (by rw [hq]; rfl) hi ht] at e
    exact e

/-- All traces up to the third sample, and sources of pressure and of the second velocity. -/
example : ∃ b, exG.backward 1 true (fun _ t => if t ≤ 2 then 1 else 0) (fun _ i t => if t ≤ 2 then 1 + i else 0) (noWf 2) =
      .ok (some b) ∧ b.ampP 0 2 = 0 ∧ b.ampV 1 1 4 = 0 := by
  obtain ⟨b, h1, h2, h3⟩ := C142_acoustic_causal exG _ 1 1 (exG_fwd 1 (by decide)) (by norm_num [exGP, exPl1])
    (fun k => by fin_cases k <;> decide +kernel) true (fun _ t => if t ≤ 2 then 1 else 0)
    (fun _ i t => if t ≤ 2 then 1 + i else 0) 2 (fun _ t ht => if_neg (by omega))
    (fun _ _ t ht => if_neg (by omega)) (.inl (by norm_num [exGP, exPl1, exPl]))
  exact ⟨b, h1, h2 _ rfl 0 (by norm_num [Setup.exAmp]) 2 (by norm_num [Setup.exAmp]) le_rfl,
    h3 1 _ rfl 1 (by norm_num [Setup.exAmp]) 4 (by norm_num [Setup.exAmp]) (by norm_num)⟩

end Dw.Acoustic

namespace Dw.Elastic

open Setup Resample Scalar

variable {d : ℕ}

theorem elastic_causal_dir {A : UArgs d} {P : Plan d} {s : ℕ} {cf : ℤ} (h : Fwd A P s cf) (h1 : P.ratio = 1)
    (hbig : ∀ k, (P.acc.pad : ℤ) + 1 ≤ (P.ext k).2 - (P.ext k).1 + P.w1 k) (bcb : Bool)
    {grP : ℕ → ℕ → ℝ} {grV : Fin d → ℕ → ℕ → ℝ} {T : ℕ} (hT : ∀ i t, T < t → grP i t = 0)
    (hT' : ∀ k i t, T < t → grV k i t = 0) (hnt : P.ratio * P.interval ≤ P.nt ∨ P.nt ≤ 0) {b : UGrad d}
    (hb : A.backward s bcb grP grV (noWf d) = .ok (some b)) {δp : ℕ → ℕ → ℕ → ℝ} {δv : Fin d → ℕ → ℕ → ℕ → ℝ}
    (hp : ∀ i, ∀ t < T, δp s i t = 0) (hv : ∀ k i, ∀ t < T, δv k s i t = 0) :
    ampPair A.ampP (δp s) b.ampP + ∑ k, ampPair (A.ampV k) (δv k s) (b.ampV k) = 0 := by
  let D : UDir d := ⟨fun _ _ => 0, fun _ _ => 0, fun _ _ => 0, δp, δv, fun _ => noWf d⟩
  obtain ⟨u, b', hu, hb', hd⟩ := C101_elastic_source_gradients A P cf (plan_ok.2 h.good) h.pre h.interval h.pml h.freq hnt s
    h.lt h.loc h.last hbig bcb grP grV (noWf d) D rfl rfl rfl
  obtain rfl := Option.some.inj (Except.ok.inj (hb.symm.trans hb'))
  have e1 : ∀ e, A.plus e D = A.withAmps (fun k => (A.ampV k).map fun a => plusAmp e a (δv k)) (A.ampP.map fun a => plusAmp e a δp) A.opts.nt := fun e => by
    simp only [UArgs.plus, D, UWf.plus, noWf, wf_plus_zero, model_plus_zero]
    rfl
  have hg := plus_good_zero h.good 1 D rfl rfl rfl
  have hu1 := hu 1
  have hu0 := hu 0
  rw [e1] at hg hu1 hu0
  simp only [map_zero_plus] at hu0
  obtain ⟨r, v, sig, mv, ms, hc, hw, hi, hE, hpt, hvt⟩ := C93_elastic_scheme A P s cf (plan_ok.2 h.good) h.pre
    h.lt h.pml h.loc h.last h.freq h.interval h.nt
  obtain ⟨r', v', sig', mv', ms', hc', hw', hi', hE', hpt', hvt'⟩ := C93_elastic_scheme _ P s cf (plan_ok.2 hg) h.pre
    h.lt h.pml h.loc h.last h.freq h.interval h.nt
  have e0 : u 0 = r := Option.some.inj (Except.ok.inj (hu0.symm.trans hc))
  have e2 : u 1 = r' := Option.some.inj (Except.ok.inj (hu1.symm.trans hc'))
  have e := hw.before hw' (T := T) (fun t ht => ⟨locSum_until h.good hg h1 h1 d (snoc_last _ _) (snoc_last _ _) (until_plus A.ampP hp) ht,
    funext fun k => locSum_until h.good hg h1 h1 k (snoc_init _ _ k) (snoc_init _ _ k) (until_plus (A.ampV k) (hv k)) ht⟩)
    (Starts.eq (P := P) (w := A.wf) hw.symm hw'.symm hw.outside hw'.outside hi hi')
  have key : (u 1).pair A (outCells P) grP grV (noWf d) = (u 0).pair A (outCells P) grP grV (noWf d) := by
    have iz : ∀ x : Wavefields d ℝ, x.inner (outCells P) (noWf d) = 0 := fun x => by
      simp [Wavefields.inner, noWf]
    have k1 : tracePair (locCount A.rcvP) grP r'.tracesP = tracePair (locCount A.rcvP) grP r.tracesP := by
      refine tracePair_until (T := T) hT (fun i hl => ?_) fun i hl t ht0 => ?_
      · have a1 := hpt' i hl
        have a2 := hpt i hl
        rw [a1, a2, downS_one hg h1, downS_one h.good h1]
      · have a1 := hpt' i hl
        have a2 := hpt i hl
        rw [a1, a2]
        exact congrArg (fun x : ℝ => -x / d) (traces_to h.good hg h1 (by rw [(e t ht0).2.1]; rfl))
    have k2 : ∀ k, tracePair (locCount (A.rcvV k)) (grV k) (r'.tracesV k) = tracePair (locCount (A.rcvV k)) (grV k) (r.tracesV k) :=
        fun k => by
      refine tracePair_until (T := T) (hT' k) (fun i hl => ?_) fun i hl t ht0 => ?_
      · have a1 := hvt' k i hl
        have a2 := hvt k i hl
        rw [a1, a2, downS_one hg h1, downS_one h.good h1]
      · have a1 := hvt' k i hl
        have a2 := hvt k i hl
        rw [a1, a2]
        exact traces_to h.good hg h1 (by rw [(e t ht0).1]; rfl)
    rw [e0, e2]
    unfold UShot.pair
    simp only [iz, k1, k2]
  have := hd 1
  simp only [D] at this
  rw [key, givenOf_noWf] at this
  linarith

/-- **C142** for `elastic`. -/
theorem C142_elastic_causal (A : UArgs d) (P : Plan d) (s : ℕ) (cf : ℤ) (h : Fwd A P s cf) (h1 : P.ratio = 1)
    (hbig : ∀ k, (P.acc.pad : ℤ) + 1 ≤ (P.ext k).2 - (P.ext k).1 + P.w1 k) (bcb : Bool)
    (grP : ℕ → ℕ → ℝ) (grV : Fin d → ℕ → ℕ → ℝ) (T : ℕ) (hT : ∀ i t, T < t → grP i t = 0)
    (hT' : ∀ k i t, T < t → grV k i t = 0) (hnt : P.ratio * P.interval ≤ P.nt ∨ P.nt ≤ 0) :
    ∃ b, A.backward s bcb grP grV (noWf d) = .ok (some b) ∧
      (∀ q, A.ampP = some q → ∀ i < q.n, ∀ t < q.nt, T ≤ t → b.ampP i t = 0) ∧
      ∀ k q, A.ampV k = some q → ∀ i < q.n, ∀ t < q.nt, T ≤ t → b.ampV k i t = 0 := by
  obtain ⟨-, b, -, hb, -⟩ := C101_elastic_source_gradients A P cf (plan_ok.2 h.good) h.pre h.interval h.pml h.freq hnt s
    h.lt h.loc h.last hbig bcb grP grV (noWf d) ⟨fun _ _ => 0, fun _ _ => 0, fun _ _ => 0, fun _ _ _ => 0, fun _ _ _ _ => 0, fun _ => noWf d⟩ rfl rfl rfl
  refine ⟨b, hb, fun q hq i hi t ht hTt => ?_, fun k q hq i hi t ht hTt => ?_⟩
  · have e := elastic_causal_dir h h1 hbig bcb hT hT' hnt hb (δp := ampBump s i t) (δv := fun _ _ _ _ => 0)
      (fun j t' => ampBump_before hTt j t') fun _ _ _ _ => rfl
    rwa [Finset.sum_eq_zero fun k _ => ampPair_zero _ _, add_zero,
      ampPair_bump A.ampP s b.ampP (by rw [hq]; rfl) (by rw [hq]; rfl) hi ht] at e
  · have e := elastic_causal_dir h h1 hbig bcb hT hT' hnt hb (δp := fun _ _ _ => 0)
      (δv := fun k' => if k' = k then ampBump s i t else fun _ _ _ => 0) (fun _ _ _ => rfl) fun k' j t' ht' => by
        by_cases hk : k' = k
        · simp only [hk, if_true]
          exact ampBump_before hTt j t' ht'
        · simp only [hk, if_false]
    rw [ampPair_zero, zero_add, Finset.sum_eq_single k (fun k' _ hk => by
      rw [if_neg hk]
      exact ampPair_zero _ _) (fun hk => absurd (Finset.mem_univ k) hk), if_pos rfl,
      ampPair_bump (A.ampV k) s (b.ampV k) (by rw [hq]; rfl) (by rw [hq]; rfl) hi ht] at e
    exact e

/-- All traces up to the third sample, and sources of pressure and of the second velocity. -/
example : ∃ b, exG.backward 1 true (fun _ t => if t ≤ 2 then 1 else 0) (fun _ i t => if t ≤ 2 then 1 + i else 0) (noWf 2) =
      .ok (some b) ∧ b.ampP 0 2 = 0 ∧ b.ampV 1 1 4 = 0 := by
  obtain ⟨b, h1, h2, h3⟩ := C142_elastic_causal exG _ 1 1 (exG_fwd 1 (by decide)) (by norm_num [exGP, exPl1])
    (fun k => by fin_cases k <;> decide +kernel) true (fun _ t => if t ≤ 2 then 1 else 0)
    (fun _ i t => if t ≤ 2 then 1 + i else 0) 2 (fun _ t ht => if_neg (by omega))
    (fun _ _ t ht => if_neg (by omega)) (.inl (by norm_num [exGP, exPl1, exPl]))
  exact ⟨b, h1, h2 _ rfl 0 (by norm_num [Setup.exAmp]) 2 (by norm_num [Setup.exAmp]) le_rfl,
    h3 1 _ rfl 1 (by norm_num [Setup.exAmp]) 4 (by norm_num [Setup.exAmp]) (by norm_num)⟩

end Dw.Elastic
