import Verif.Setup.Autograd
import Verif.Scalar.GradAll
import Verif.Scalar.OnGrid

/-!
# Gradients of `scalar`

What `backward()` gives for a call of `scalar` (`scalar.py` 404-590): automatic differentiation goes through
`downsample_and_movedim`, the propagator (`ScalarForwardFunc.backward`), the scaling of the source amplitudes
(`scalar.py` 518-530), `upsample`, and the slicing and padding of the model.  All tensors need gradients.
-/

namespace Dw.Scalar

open Setup Resample

variable {d : ℕ}

/-- The gradients from one shot: of the padded model, of the source amplitudes (by source and time), and of the
initial wavefields. -/
structure UGrad (d : ℕ) where
  v : Fld d ℝ
  amps : ℕ → ℕ → ℝ
  wf : Wavefields d ℝ

open Classical in
/-- The backward pass of shot `s`, from the gradients `gr` of the receiver amplitudes (by receiver and time) and
`g` of the final wavefields; `bcb` says whether there is a backward callback. -/
noncomputable def UArgs.shotGrad (A : UArgs d) (P : Plan d) (cf : ℤ) (ns nr s : ℕ) (bcb : Bool)
    (gr : ℕ → ℕ → ℝ) (g : Wavefields d ℝ) : Except PyErr (Option (UGrad d)) := do
  let C := cfg ns nr P s
  let a : ℕ → Fin ns → ℝ := fun t i => upAmps P A.timeTaper A.amps s t i
  let r ← C.forward A.grad (if A.callback then some cf.toNat else none) P.nt.toNat (Born.scaleAmp C a) (A.init s)
  let b ← C.backward A.grad (if bcb then some cf.toNat else none) P.nt.toNat r.store
    (fun t i => downT P A.timeTaper (gr i) t) g.toInit
  return if Finite (P.pml false) then
    some { v := fun p => b.gv p + ∑ t ∈ Finset.range P.nt.toNat, ∑ i,
              if ((C.src i).getD fun _ => 0) = p then b.gf t i * (-a t i * (2 * C.v p) * C.dt ^ 2) else 0
           amps := fun i => upT P A.timeTaper ((A.amps.map AmpT.nt).getD 0) fun t =>
              if h : i < ns then -(b.gf t ⟨i, h⟩ * Born.gatherAt C.v (C.src ⟨i, h⟩) ^ 2 * C.dt ^ 2) else 0
           wf := b.out }
  else none

open Classical in
/-- The gradients from shot `s` of a call. -/
noncomputable def UArgs.backward (A : UArgs d) (s : ℕ) (bcb : Bool) (gr : ℕ → ℕ → ℝ) (g : Wavefields d ℝ) :
    Except PyErr (Option (UGrad d)) := do
  let _ ← raiseIf (NoElements A.v) .runtimeError
  let P ← A.setup.plan
  let cf ← checkCallbackFrequency A.callbackFreq
  A.shotGrad P cf (locAt P.srcs 0).n (locAt P.rcvs 0).n s bcb gr g

/-- `v.grad`, from the gradients of the shots. -/
noncomputable def UArgs.vGrad (A : UArgs d) (P : Plan d) (b : ℕ → UGrad d) : ℕ → Fld d ℝ := fun j =>
  extractModelT A.v.shape P.ext (padList (d := d) (padBegin P.accZ P.wL) (padEnd false P.accZ P.wL)) .replicate
    (shotsT A.v.nb P.nb (fun s => (b s).v) j)

/-! ### Directions -/

/-- A direction in which the differentiable arguments of a call can change. -/
structure UDir (d : ℕ) where
  v : ℕ → Fld d ℝ
  amps : ℕ → ℕ → ℕ → ℝ
  wf : ℕ → Wavefields d ℝ

def plusWf (e : ℝ) (w : WfT d) (δ : ℕ → Fld d ℝ) : WfT d := {w with val := fun s c => w.val s c + e * δ s c}

def plusAmp (e : ℝ) (a : AmpT) (δ : ℕ → ℕ → ℕ → ℝ) : AmpT :=
  {a with val := fun s i t => a.val s i t + e * δ s i t}

/-- The call with arguments `x + e δ`; tensors that are not given stay so. -/
def UArgs.plus (A : UArgs d) (e : ℝ) (D : UDir d) : UArgs d :=
  {A with
    v := A.v.withVal fun s c => A.v.val s c + e * D.v s c
    amps := A.amps.map fun a => plusAmp e a D.amps
    wfc := A.wfc.map fun w => plusWf e w fun s => (D.wf s).wfc
    wfp := A.wfp.map fun w => plusWf e w fun s => (D.wf s).wfp
    psi := fun k => (A.psi k).map fun w => plusWf e w fun s => (D.wf s).psi k
    zeta := fun k => (A.zeta k).map fun w => plusWf e w fun s => (D.wf s).zeta k }

/-- `w` for the wavefields that are given, zero for the others. -/
def UArgs.givenOf (A : UArgs d) (w : Wavefields d ℝ) : Wavefields d ℝ :=
  ⟨if A.wfc.isSome then w.wfc else fun _ => 0, if A.wfp.isSome then w.wfp else fun _ => 0,
    fun k => if (A.psi k).isSome then w.psi k else fun _ => 0,
    fun k => if (A.zeta k).isSome then w.zeta k else fun _ => 0⟩

/-- The number of receivers of a shot. -/
def UArgs.nRcv (A : UArgs d) : ℕ := match A.rcv with | none => 0 | some l => l.n

/-- The cells of a returned wavefield. -/
def outCells (P : Plan d) : Finset (Cell d) :=
  box (fun _ => 0) fun k => (P.ext k).2 - (P.ext k).1 + P.w0 k + P.w1 k

/-- `(gr * receiver_amplitudes).sum() + (g * final wavefields).sum()` for one shot. -/
noncomputable def UShot.pair (r : UShot d) (nr : ℕ) (S : Finset (Cell d)) (gr : ℕ → ℕ → ℝ) (g : Wavefields d ℝ) : ℝ :=
  ∑ i ∈ Finset.range nr, ∑ t ∈ Finset.range (r.traces i).len, gr i t * (r.traces i).val t + r.out.inner S g

/-- `(δ * source_amplitudes.grad).sum()` for one shot. -/
noncomputable def UArgs.ampPair (A : UArgs d) (δ x : ℕ → ℕ → ℝ) : ℝ :=
  match A.amps with
  | none => 0
  | some a => ∑ i ∈ Finset.range a.n, ∑ t ∈ Finset.range a.nt, δ i t * x i t

/-! ### Lemmas -/

theorem cfg_userCells (ns nr : ℕ) (P : Plan d) (s : ℕ) : (cfg ns nr P s).userCells = outCells P := by
  unfold Cfg.userCells outCells
  congr 1
  funext k
  simp only [Acc.order_div_two]
  have := n_eq P k
  show P.n false k - 2 * (P.acc.pad : ℤ) = _
  omega

/-- The wavefields of a call with zero for those that are not given. -/
def UArgs.wf0 (A : UArgs d) (s : ℕ) : Wavefields d ℝ :=
  ⟨((A.init s).wfc).getD fun _ => 0, ((A.init s).wfp).getD fun _ => 0,
    fun k => ((A.init s).psi k).getD fun _ => 0, fun k => ((A.init s).zeta k).getD fun _ => 0⟩

theorem Cfg.createOrPad_getD {ns nr : ℕ} (C : Cfg d ns nr ℝ) (w : Option (Fld d ℝ)) :
    C.createOrPad (some (w.getD fun _ => 0)) = C.createOrPad w := by
  cases w with
  | some w => rfl
  | none =>
      funext c
      simp only [Cfg.createOrPad, Option.getD_none, ite_self]

theorem start_wf0 {ns nr : ℕ} (C : Cfg d ns nr ℝ) (A : UArgs d) (s : ℕ) :
    C.start (A.wf0 s).toInit = C.start (A.init s) := by
  simp only [Cfg.start, UArgs.wf0, Wavefields.toInit, Cfg.createOrPad_getD]

theorem plus_wf0 (A : UArgs d) (e : ℝ) (D : UDir d) (s : ℕ) :
    (A.plus e D).wf0 s = (A.wf0 s).plus e (A.givenOf (D.wf s)) := by
  have key : ∀ (w : Option (WfT d)) (δ : ℕ → Fld d ℝ),
      ((w.map fun w => plusWf e w δ).map fun w => w.val s).getD (fun _ => 0) = fun c =>
        ((w.map fun w => w.val s).getD fun _ => 0) c + e * (if w.isSome then δ s else fun _ => 0) c := by
    intro w δ
    cases w <;> simp [plusWf]
  simp only [UArgs.wf0, UArgs.init, UArgs.plus, Wavefields.plus, UArgs.givenOf, Wavefields.mk.injEq]
  exact ⟨key _ _, key _ _, funext fun k => key _ _, funext fun k => key _ _⟩

/-- The pairing of the outputs of a call in terms of the propagator. -/
theorem scalar_pair {A : UArgs d} {P : Plan d} {cf : ℤ} (h : A.setup.Good P) {s : ℕ} (hs : s < P.nb)
    (hP : PmlOk P) (hsrc : ∀ l, A.src = some l → WholeIgnored d l s)
    (hrcv : ∀ l, A.rcv = some l → WholeIgnored d l s)
    (hcf : checkCallbackFrequency A.callbackFreq = .ok cf) (hi : 0 < P.interval)
    (hnt : A.callback = true ∨ P.ratio * P.interval ≤ P.nt ∨ P.nt ≤ 0) (gr : ℕ → ℕ → ℝ) (g : Wavefields d ℝ) :
    ∃ r, A.scalar s = .ok (some r) ∧
      let C := cfg (locAt P.srcs 0).n (locAt P.rcvs 0).n P s
      r.pair A.nRcv (outCells P) gr g = C.obj P.nt.toNat (fun t i => downT P A.timeTaper (gr i) t) g
        (Born.scaleAmp C fun t i => upAmps P A.timeTaper A.amps s t i) (A.wf0 s) := by
  obtain ⟨r, h1, h2, h3⟩ := scalar_eq h hs hP hsrc hrcv hcf hi hnt
  refine ⟨r, h1, ?_⟩
  have hn : A.nRcv = (locAt P.rcvs 0).n := (cfg_locations h hs).2.1.symm
  have hu := cfg_userCells (locAt P.srcs 0).n (locAt P.rcvs 0).n P s
  simp only [UShot.pair, Cfg.obj, start_wf0, hu]
  rw [h2]
  congr 1
  rw [hn, ← Fin.sum_univ_eq_sum_range (fun i => ∑ t ∈ Finset.range (r.traces i).len, gr i t * (r.traces i).val t)]
  simp only [h3, downT_adj h, traceInner]
  rw [Finset.sum_comm]
  refine Finset.sum_congr rfl fun t _ => Finset.sum_congr rfl fun i _ => ?_
  split_ifs <;> rfl

end Dw.Scalar
