import Verif.Props.UserConvolve
import Verif.Props.UserDensity
import Verif.Props.UserGradScalar
import Verif.Props.UserGradBorn
import Verif.Props.UserGradAcoustic
import Verif.Props.UserGradElastic
import Verif.Props.UserLinearAcoustic
import Verif.Props.UserLinearElastic
import Verif.Props.UserLinearBorn

/-!
# C139: the dot product test
-/

namespace Dw.Setup

open Scalar

variable {d : ℕ}

/-- The values of an initial wavefield; 0 if it is not given. -/
def wfVal (o : Option (WfT d)) (s : ℕ) : Fld d ℝ :=
  match o with
  | none => fun _ => 0
  | some w => w.val s

theorem amp_minus (a : Option AmpT) : (a.map fun x => plusAmp (-1) x (ampVal a)) = ampWith a fun _ _ _ => 0 := by
  cases a <;> simp [plusAmp, ampWith, ampVal]

theorem wf_minus (w : Option (WfT d)) : (w.map fun x => plusWf (-1) x (wfVal w)) = wfWith w fun _ _ => 0 := by
  cases w <;> simp [plusWf, wfWith, wfVal]

theorem amp_same (a : Option AmpT) (δ : ℕ → ℕ → ℕ → ℝ) : (a.map fun x => plusAmp 0 x δ) = a := by
  cases a <;> simp [plusAmp]

theorem wf_same (w : Option (WfT d)) (δ : ℕ → Fld d ℝ) : (w.map fun x => plusWf 0 x δ) = w := by
  cases w <;> simp [plusWf]

theorem model_unmoved (e : ℝ) (m : ModelT d ℝ) : plusModel e m (fun _ _ => 0) = m := by
  simp [plusModel, ModelT.withVal]

theorem wf_given (w : Option (WfT d)) (s : ℕ) : (if w.isSome then wfVal w s else fun _ => 0) = wfVal w s := by
  cases w <;> rfl

theorem tracePair_zero {n : ℕ} {gr : ℕ → ℕ → ℝ} {x : ℕ → Resample.Sig ℝ} (h : ∀ i < n, ∀ t, (x i).val t = 0) :
    tracePair n gr x = 0 :=
  Finset.sum_eq_zero fun i hi => Finset.sum_eq_zero fun t _ => by rw [h i (Finset.mem_range.1 hi) t, mul_zero]

end Dw.Setup

namespace Dw.Acoustic

open Setup Resample Scalar

variable {d : ℕ}

/-- The values of the initial wavefields, 0 for those that are not given. -/
def UWf.own (w : UWf d) (s : ℕ) : Wavefields d ℝ :=
  ⟨wfVal w.p s, fun k => wfVal (w.v k) s, fun k => wfVal (w.phi k) s, fun k => wfVal (w.psi k) s⟩

/-- **C139** for `acoustic`. -/
theorem C139_acoustic_dot (A : UArgs d) (P : Plan d) (cf : ℤ) (h : A.setup.plan = .ok P) (hpre : ¬A.Pre)
    (hi : 0 < P.interval) (hP : PmlOk P) (hcf : checkCallbackFrequency A.opts.callbackFreq = .ok cf)
    (hnt : P.ratio * P.interval ≤ P.nt ∨ P.nt ≤ 0) (s : ℕ) (hs : s < P.nb)
    (hloc : ∀ l, some l ∈ A.setup.srcs ++ A.setup.rcvs → WholeIgnored d l s)
    (hlast : ∀ k, 0 < P.w1 k ∨ (P.ext k).2 = A.v.shape k ∨ P.BeforeLast k s (A.srcV k) ∧ P.BeforeLast k s (A.rcvV k))
    (hbig : ∀ k, (P.acc.pad : ℤ) + 1 ≤ (P.ext k).2 - (P.ext k).1 + P.w1 k)
    (bcb : Bool) (grP : ℕ → ℕ → ℝ) (grV : Fin d → ℕ → ℕ → ℝ) (g : Wavefields d ℝ) :
    ∃ (r : UShot d) (b : UGrad d), A.acoustic s = .ok (some r) ∧ A.backward s bcb grP grV g = .ok (some b) ∧
      r.pair A (outCells P) grP grV g = ampPair A.ampP (ampVal A.ampP s) b.ampP +
        ∑ k, ampPair (A.ampV k) (ampVal (A.ampV k) s) (b.ampV k) + (A.wf.own s).inner (outCells P) b.wf := by
  let D : UDir d := ⟨fun _ _ => 0, fun _ _ => 0, ampVal A.ampP, fun k => ampVal (A.ampV k), A.wf.own⟩
  obtain ⟨u, b, hu, hb, hp⟩ := C99_acoustic_source_gradients A P cf h hpre hi hP hcf hnt s hs hloc hlast hbig bcb grP grV g D
    rfl rfl
  let x : UVal d := ⟨fun _ _ _ => 0, fun _ _ _ _ => 0, fun _ => ⟨fun _ => 0, fun _ _ => 0, fun _ _ => 0, fun _ _ => 0⟩⟩
  obtain ⟨r1, r2, rc, -, -, h3, ho, ht, hv⟩ := C103_acoustic_superposition A P s cf h hpre hs hP hloc hlast hcf hi (.inr hnt)
    0 0 x x
  have e0 : A.plus 0 D = A := by
    simp only [UArgs.plus, UWf.plus, amp_same, wf_same, D, model_unmoved]
  have e1 : A.plus (-1) D = A.give (x.comb 0 0 x) := by
    simp only [UArgs.plus, UWf.plus, D, model_unmoved, UWf.own, amp_minus, wf_minus, UArgs.give, UWf.give, x, UVal.comb,
      Wavefields.comb, mul_zero, add_zero]
  have hr : u (-1) = rc := by
    have := hu (-1)
    rw [e1, h3] at this
    exact (Option.some.inj (Except.ok.inj this)).symm
  have z : (u (-1)).pair A (outCells P) grP grV g = 0 := by
    rw [hr]
    unfold UShot.pair
    rw [tracePair_zero fun i _ t => by rw [(ht i).1]; simp [Sig.comb],
      Finset.sum_eq_zero fun k _ => tracePair_zero fun i _ t => by rw [(hv k i).1]; simp [Sig.comb], ho]
    simp [Wavefields.inner, Wavefields.comb]
  have hg : A.wf.givenOf (A.wf.own s) = A.wf.own s := by
    simp only [UWf.givenOf, UWf.own, wf_given]
  have := hp (-1)
  rw [z] at this
  simp only [D, hg] at this
  exact ⟨u 0, b, e0 ▸ hu 0, hb, by linarith⟩

example : ∃ r b, (exU .none).acoustic 1 = .ok (some r) ∧ (exU .none).backward 1 true (fun _ t => if t = 4 then 1 else 0)
    (fun _ _ _ => 2) ⟨fun _ => 1, fun _ _ => 0, fun _ _ => 0, fun _ _ => 0⟩ = .ok (some b) ∧
    r.pair (exU .none) (outCells (exP ![(0, 7), (0, 9)])) (fun _ t => if t = 4 then 1 else 0) (fun _ _ _ => 2)
      ⟨fun _ => 1, fun _ _ => 0, fun _ _ => 0, fun _ _ => 0⟩ = ampPair (exU .none).ampP (ampVal (exU .none).ampP 1) b.ampP +
        ∑ k, ampPair ((exU .none).ampV k) (ampVal ((exU .none).ampV k) 1) (b.ampV k) +
        ((exU .none).wf.own 1).inner (outCells (exP ![(0, 7), (0, 9)])) b.wf :=
  C139_acoustic_dot (exU .none) (exP ![(0, 7), (0, 9)]) 1 (plan_ok.2 exU_whole)
    (exU_pre .none) (by norm_num [exP, exPl]) (.inl (by norm_num [exP, exPl])) rfl (.inl (by norm_num [exP, exPl])) 1
    (by norm_num [exP, exPl]) (fun l hl => Born.exLoc_whole (by norm_num) (exU_locs .none l hl))
    (fun k => .inl (by fin_cases k <;> norm_num [exP, exPl, Plan.w1]))
    (fun k => by fin_cases k <;> decide +kernel) true _ _ _

end Dw.Acoustic

namespace Dw.Elastic

open Setup Resample Scalar

variable {d : ℕ}

/-- The values of the initial wavefields, 0 for those that are not given. -/
def UWf.own (w : UWf d) (s : ℕ) : Wavefields d ℝ :=
  ⟨fun i => wfVal (w.v i) s, fun i => wfVal (w.s i) s, fun p => wfVal (w.sh p) s, fun i j => wfVal (w.mv i j) s,
    fun i j => wfVal (w.ms i j) s⟩

/-- **C139** for `elastic`. -/
theorem C139_elastic_dot (A : UArgs d) (P : Plan d) (cf : ℤ) (h : A.setup.plan = .ok P) (hpre : ¬A.Pre)
    (hi : 0 < P.interval) (hP : PmlOk P) (hcf : checkCallbackFrequency A.opts.callbackFreq = .ok cf)
    (hnt : P.ratio * P.interval ≤ P.nt ∨ P.nt ≤ 0) (s : ℕ) (hs : s < P.nb)
    (hloc : ∀ l, some l ∈ A.setup.srcs ++ A.setup.rcvs → WholeIgnored d l s)
    (hlast : ∀ k, 0 < P.w1 k ∨ (P.ext k).2 = A.lam.shape k ∨ P.BeforeLast k s (A.srcV k) ∧ P.BeforeLast k s (A.rcvV k))
    (hbig : ∀ k, (P.acc.pad : ℤ) + 1 ≤ (P.ext k).2 - (P.ext k).1 + P.w1 k)
    (bcb : Bool) (grP : ℕ → ℕ → ℝ) (grV : Fin d → ℕ → ℕ → ℝ) (g : Wavefields d ℝ) :
    ∃ (r : UShot d) (b : UGrad d), A.elastic s = .ok (some r) ∧ A.backward s bcb grP grV g = .ok (some b) ∧
      r.pair A (outCells P) grP grV g = ampPair A.ampP (ampVal A.ampP s) b.ampP +
        ∑ k, ampPair (A.ampV k) (ampVal (A.ampV k) s) (b.ampV k) + (A.wf.own s).inner (outCells P) b.wf := by
  let D : UDir d := ⟨fun _ _ => 0, fun _ _ => 0, fun _ _ => 0, ampVal A.ampP, fun k => ampVal (A.ampV k), A.wf.own⟩
  obtain ⟨u, b, hu, hb, hp⟩ := C101_elastic_source_gradients A P cf h hpre hi hP hcf hnt s hs hloc hlast hbig bcb grP grV g D
    rfl rfl rfl
  let x : UVal d := ⟨fun _ _ _ => 0, fun _ _ _ _ => 0,
    fun _ => ⟨fun _ _ => 0, fun _ _ => 0, fun _ _ => 0, fun _ _ _ => 0, fun _ _ _ => 0⟩⟩
  obtain ⟨r1, r2, rc, -, -, h3, ho, ht, hv⟩ := C103_elastic_superposition A P s cf h hpre hs hP hloc hlast hcf hi (.inr hnt)
    0 0 x x
  have e0 : A.plus 0 D = A := by
    simp only [UArgs.plus, UWf.plus, amp_same, wf_same, D, model_unmoved]
  have e1 : A.plus (-1) D = A.give (x.comb 0 0 x) := by
    simp only [UArgs.plus, UWf.plus, D, model_unmoved, UWf.own, amp_minus, wf_minus, UArgs.give, UWf.give, x, UVal.comb,
      Wavefields.comb, mul_zero, add_zero]
  have hr : u (-1) = rc := by
    have := hu (-1)
    rw [e1, h3] at this
    exact (Option.some.inj (Except.ok.inj this)).symm
  have z : (u (-1)).pair A (outCells P) grP grV g = 0 := by
    rw [hr]
    unfold UShot.pair
    rw [tracePair_zero fun i _ t => by rw [(ht i).1]; simp [Sig.comb],
      Finset.sum_eq_zero fun k _ => tracePair_zero fun i _ t => by rw [(hv k i).1]; simp [Sig.comb], ho]
    simp [Wavefields.inner, Wavefields.comb]
  have hg : A.wf.givenOf (A.wf.own s) = A.wf.own s := by
    simp only [UWf.givenOf, UWf.own, wf_given]
  have := hp (-1)
  rw [z] at this
  simp only [D, hg] at this
  exact ⟨u 0, b, e0 ▸ hu 0, hb, by linarith⟩

example : ∃ r b, (exU .none).elastic 1 = .ok (some r) ∧ (exU .none).backward 1 true (fun _ t => if t = 4 then 1 else 0)
    (fun _ _ _ => 2) ⟨fun _ _ => 1, fun _ _ => 0, fun _ _ => 0, fun _ _ _ => 0, fun _ _ _ => 0⟩ = .ok (some b) ∧
    r.pair (exU .none) (outCells (exP ![(0, 7), (0, 9)])) (fun _ t => if t = 4 then 1 else 0) (fun _ _ _ => 2)
      ⟨fun _ _ => 1, fun _ _ => 0, fun _ _ => 0, fun _ _ _ => 0, fun _ _ _ => 0⟩ =
        ampPair (exU .none).ampP (ampVal (exU .none).ampP 1) b.ampP +
        ∑ k, ampPair ((exU .none).ampV k) (ampVal ((exU .none).ampV k) 1) (b.ampV k) +
        ((exU .none).wf.own 1).inner (outCells (exP ![(0, 7), (0, 9)])) b.wf :=
  C139_elastic_dot (exU .none) (exP ![(0, 7), (0, 9)]) 1 (plan_ok.2 exU_whole)
    (exU_pre .none) (by norm_num [exP, exPl]) (.inl (by norm_num [exP, exPl])) rfl (.inl (by norm_num [exP, exPl])) 1
    (by norm_num [exP, exPl]) (fun l hl => Born.exLoc_whole (by norm_num) (exU_locs .none l hl))
    (fun k => .inl (by fin_cases k <;> norm_num [exP, exPl, Plan.w1]))
    (fun k => by fin_cases k <;> decide +kernel) true _ _ _

end Dw.Elastic

namespace Dw.Born

open Setup Resample Scalar

variable {d : ℕ}

/-- The values of the initial wavefields, 0 for those that are not given. -/
def UWf.own (w : UWf d) (s : ℕ) : Wavefields d ℝ :=
  ⟨wfVal w.wfc s, wfVal w.wfp s, fun k => wfVal (w.psi k) s, fun k => wfVal (w.zeta k) s⟩

/-- **C139** for `scalar_born`, if the gradients of all inputs are asked for. -/
theorem C139_born_dot (A : UArgs d) (P : Plan d) (cf : ℤ) (h : A.setup.plan = .ok P)
    (hi : 0 < P.interval) (hP : PmlOk P) (hcf : checkCallbackFrequency A.opts.callbackFreq = .ok cf)
    (hnt : P.ratio * P.interval ≤ P.nt ∨ P.nt ≤ 0) (s : ℕ) (hs : s < P.nb)
    (hloc : ∀ l, A.src = some l ∨ A.rcv = some l ∨ A.bgRcv = some l → WholeIgnored d l s)
    (full bcb : Bool) (gr grsc : ℕ → ℕ → ℝ) (g gsc : Wavefields d ℝ) (hfull : (A.gradV || full) = true) :
    ∃ (r : UShot d) (b : UGrad d), A.born s = .ok (some r) ∧ A.backward s full bcb gr grsc g gsc = .ok (some b) ∧
      r.pair A (outCells P) gr grsc g gsc = ampPair A.amps (ampVal A.amps s) b.amps +
        (A.wf.own s).inner (outCells P) b.wf + (A.wfsc.own s).inner (outCells P) b.wfsc := by
  let D : UDir d := ⟨fun _ _ => 0, fun _ _ => 0, ampVal A.amps, A.wf.own, A.wfsc.own⟩
  obtain ⟨u, b, hu, hb, hp⟩ := C97_born_source_gradients A P cf h hi hP hcf hnt s hs hloc full bcb gr grsc g gsc D
    rfl rfl (.inl hfull)
  let x : UVal d := ⟨fun _ _ _ => 0, fun _ => Wavefields.zero d, fun _ => Wavefields.zero d⟩
  obtain ⟨r1, r2, rc, -, -, h3, ho, ho2, ht, hv⟩ := C103_born_superposition A P s cf h hs hP hloc hcf hi (.inr hnt) 0 0 x x
  have e0 : A.plus 0 D = A := by
    simp only [UArgs.plus, UWf.plus, amp_same, wf_same, D, model_unmoved]
  have e1 : A.plus (-1) D = A.give (x.comb 0 0 x) := by
    simp only [UArgs.plus, UWf.plus, D, model_unmoved, UWf.own, amp_minus, wf_minus, UArgs.give, UWf.give, x, UVal.comb,
      Wavefields.comb, Wavefields.zero, mul_zero, add_zero]
  have hr : u (-1) = rc := by
    have := hu (-1)
    rw [e1, h3] at this
    exact (Option.some.inj (Except.ok.inj this)).symm
  have z : (u (-1)).pair A (outCells P) gr grsc g gsc = 0 := by
    rw [hr]
    unfold UShot.pair
    rw [tracePair_zero fun i _ t => by rw [(ht i).1]; simp [Sig.comb],
      tracePair_zero fun i _ t => by rw [(hv i).1]; simp [Sig.comb], ho, ho2]
    simp [Wavefields.inner, Wavefields.comb]
  have hg : ∀ w : UWf d, w.givenOf (w.own s) = w.own s := fun w => by
    simp only [UWf.givenOf, UWf.own, wf_given]
  have := hp (-1)
  rw [z] at this
  simp only [D, hg] at this
  exact ⟨u 0, b, e0 ▸ hu 0, hb, by linarith⟩

example : ∃ r b, (exU .none).born 1 = .ok (some r) ∧ (exU .none).backward 1 false true (fun _ _ => 0)
    (fun _ t => if t = 4 then 1 else 0) (Wavefields.zero 2) (Wavefields.zero 2) = .ok (some b) ∧
    r.pair (exU .none) (outCells (exP ![(0, 7), (0, 9)])) (fun _ _ => 0) (fun _ t => if t = 4 then 1 else 0)
      (Wavefields.zero 2) (Wavefields.zero 2) = ampPair (exU .none).amps (ampVal (exU .none).amps 1) b.amps +
        ((exU .none).wf.own 1).inner (outCells (exP ![(0, 7), (0, 9)])) b.wf +
        ((exU .none).wfsc.own 1).inner (outCells (exP ![(0, 7), (0, 9)])) b.wfsc :=
  C139_born_dot (exU .none) (exP ![(0, 7), (0, 9)]) 1 (plan_ok.2 exU_whole)
    (by norm_num [exP, exPl]) (.inl (by norm_num [exP, exPl])) rfl (.inl (by norm_num [exP, exPl])) 1
    (by norm_num [exP, exPl]) (exU_locs (by norm_num)) false true _ _ _ _ rfl

end Dw.Born

namespace Dw.Scalar

open Setup Resample

variable {d : ℕ}

/-- The values of the initial wavefields, 0 for those that are not given. -/
def UArgs.own (A : UArgs d) (s : ℕ) : Wavefields d ℝ :=
  ⟨wfVal A.wfc s, wfVal A.wfp s, fun k => wfVal (A.psi k) s, fun k => wfVal (A.zeta k) s⟩

theorem amp_minus_times (a : Option AmpT) : (a.map fun x => plusAmp (-1) x (ampVal a)) = a.map (AmpT.times 0) := by
  cases a <;> simp [plusAmp, AmpT.times, ampVal]

theorem wf_minus_times (w : Option (WfT d)) : (w.map fun x => plusWf (-1) x (wfVal w)) = w.map (WfT.times 0) := by
  cases w <;> simp [plusWf, WfT.times, wfVal]

/-- **C139** The dot product test: the sum of the products of outputs and given gradients is the sum of the products of source
amplitudes and initial wavefields with their gradients. -/
theorem C139_scalar_dot (A : UArgs d) (P : Plan d) (cf : ℤ) (h : A.setup.plan = .ok P)
    (hi : 0 < P.interval) (hP : PmlOk P) (hcf : checkCallbackFrequency A.callbackFreq = .ok cf)
    (hnt : P.ratio * P.interval ≤ P.nt ∨ P.nt ≤ 0) (s : ℕ) (hs : s < P.nb)
    (hsrc : ∀ l, A.src = some l → WholeIgnored d l s) (hrcv : ∀ l, A.rcv = some l → WholeIgnored d l s)
    (bcb : Bool) (gr : ℕ → ℕ → ℝ) (g : Wavefields d ℝ) :
    ∃ (r : UShot d) (b : UGrad d), A.scalar s = .ok (some r) ∧ A.backward s bcb gr g = .ok (some b) ∧
      r.pair A.nRcv (outCells P) gr g = A.ampPair (ampVal A.amps s) b.amps + (A.own s).inner (outCells P) b.wf := by
  let D : UDir d := ⟨fun _ _ => 0, ampVal A.amps, A.own⟩
  obtain ⟨u, b, hu, hb, hp⟩ := C95_source_gradients A P cf h hi hP hcf hnt s hs hsrc hrcv bcb gr g D rfl
  have e0 : A.plus 0 D = A := by
    simp only [UArgs.plus, amp_same, wf_same, D, mul_zero, add_zero]
    rfl
  let Z : UArgs d := { A with
    amps := A.amps.map (AmpT.times 0)
    wfc := A.wfc.map (WfT.times 0)
    wfp := A.wfp.map (WfT.times 0)
    psi := fun k => (A.psi k).map (WfT.times 0)
    zeta := fun k => (A.zeta k).map (WfT.times 0) }
  have e1 : A.plus (-1) D = Z := by
    simp only [UArgs.plus, D, UArgs.own, amp_minus_times, wf_minus_times, mul_zero, add_zero, Z]
    rfl
  have hG := plan_ok.1 h
  have hZ : Z.setup.Good P := hG.revalue (amps := [A.amps.map (AmpT.times 0)])
    (wfs := [Z.wfc, Z.wfp] ++ List.ofFn Z.psi ++ List.ofFn Z.zeta)
    (by show [_] = [_]; rw [times_ampSize])
    (by simp only [UArgs.setup, Z, List.map_append, List.map_cons, List.map_nil, List.map_ofFn, Function.comp_def,
      times_wfSize])
  obtain ⟨r, w, psi, zeta, hc, hw, hI, he, ht⟩ := C90_scalar_scheme Z P s cf (plan_ok.2 hZ) hs hP hsrc hrcv hcf hi (.inr hnt)
  have hq : (fun t => locSum (d := d) Z.src s fun i => upAmps P Z.timeTaper Z.amps s t i) = 0 := by
    funext t
    refine (locSum_times' hG A.timeTaper 0 A.src A.amps s t).trans ?_
    funext c
    exact zero_mul _
  rw [hq] at hw
  have h0 := Spec.Grid.Wave.zero (G := P.grid) (P.grid.extend (Z.v.shot s))
  have gz : ∀ (y : Option (WfT d)) c, P.given (y.map (WfT.times 0)) s c = 0 := fun y c => by rw [given_times, zero_mul]
  have hI0 : P.StartsFrom s ⟨Z.wfc, Z.wfp, Z.psi, Z.zeta⟩ (0 : ℕ → Fld d ℝ) 0 0 := fun c _ =>
    ⟨(gz _ c).symm, (gz _ c).symm, fun k => ⟨fun _ => ⟨rfl, rfl⟩, fun _ => ⟨(gz _ c).symm, (gz _ c).symm⟩⟩⟩
  obtain ⟨rfl, rfl, rfl⟩ := h0.unique hw fun c => startsFrom_zero (P := P) (w := ⟨Z.wfc, Z.wfp, Z.psi, Z.zeta⟩)
    hw.outside h0.outside hI hI0 c
  have hr : u (-1) = r := by
    have := hu (-1)
    rw [e1, hc] at this
    exact (Option.some.inj (Except.ok.inj this)).symm
  have hn : A.nRcv = locCount A.rcv := by
    unfold UArgs.nRcv locCount
    cases A.rcv <;> rfl
  have tz : ∀ i < locCount A.rcv, ∀ t, (r.traces i).val t = 0 := fun i hl t => by
    have e : ∀ t, locValue A.rcv s i ((0 : ℕ → Fld d ℝ) (t + 1)) = 0 := fun t => by
      have := locValue_smul A.rcv s i 0 (0 : Fld d ℝ)
      rwa [zero_mul, show (fun c : Cell d => (0 : ℝ) * (0 : Fld d ℝ) c) = 0 from funext fun c => zero_mul _] at this
    rw [ht i hl, downS_times hG A.timeTaper 0 (x := fun _ => 0) fun t _ => (e t).trans (zero_mul _).symm]
    exact zero_mul _
  have oz : r.out = Wavefields.zero d :=
    endsIn_unique (P := P) (N := P.nt.toNat / (P.ratio * P.interval).toNat * (P.ratio * P.interval).toNat) (u := 0) (psi := 0)
      (zeta := 0) (fun c => ⟨rfl, rfl, fun k => ⟨rfl, rfl⟩⟩) he
  have z : (u (-1)).pair A.nRcv (outCells P) gr g = 0 := by
    rw [hr, hn]
    unfold UShot.pair
    rw [oz, Wavefields.zero_inner, add_zero]
    exact tracePair_zero tz
  have hg : A.givenOf (A.own s) = A.own s := by
    simp only [UArgs.givenOf, UArgs.own, wf_given]
  have := hp (-1)
  rw [z] at this
  simp only [D, hg] at this
  exact ⟨u 0, b, e0 ▸ hu 0, hb, by linarith⟩

example : ∃ r b, (exU .none).scalar 1 = .ok (some r) ∧ (exU .none).backward 1 true (fun _ t => if t = 4 then 1 else 0)
    ⟨fun _ => 1, fun _ => 0, fun _ _ => 0, fun _ _ => 0⟩ = .ok (some b) ∧
    r.pair (exU .none).nRcv (outCells (exP ![(0, 7), (0, 9)])) (fun _ t => if t = 4 then 1 else 0)
      ⟨fun _ => 1, fun _ => 0, fun _ _ => 0, fun _ _ => 0⟩ = (exU .none).ampPair (ampVal (exU .none).amps 1) b.amps +
        ((exU .none).own 1).inner (outCells (exP ![(0, 7), (0, 9)])) b.wf := by
  have hl : ∀ l, some exLoc = some l → WholeIgnored 2 l 1 := fun l hl => by
    cases hl
    exact exLoc_whole 1 (by decide)
  exact C139_scalar_dot (exU .none) _ 1 (plan_ok.2 exU_whole) (by norm_num [exP])
    (.inl (by norm_num [exP])) rfl (.inl (by norm_num [exP])) 1 (by decide) hl hl true _ _

end Dw.Scalar
