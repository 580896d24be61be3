import Verif.Setup.Propagator
import Verif.Setup.SurveyLemmas
import Verif.Scalar.Model
import Verif.Born.Model
import Verif.Gpu.Compress

/-!
# The function `scalar`

Models `scalar` (`scalar.py` 404-590) from the arguments of the user to the returned tensors: setup,
scaling of the amplitudes, PML profiles, propagation and resampling.  The number of dimensions is known
(`get_ndim` is in `Setup/Validate.lean`).  The shots of a call are run one at a time (`C07` is about
running them together).
-/

namespace Dw.Scalar

open Setup Resample

/-- The arguments of `scalar`.  `grad` says whether gradients will be needed, `callback` whether a
forward callback is given. -/
structure UArgs (d : ℕ) where
  v : ModelT d ℝ
  gridSpacing : PyArg
  dt : ℚ
  amps : Option AmpT
  src : Option LocT
  rcv : Option LocT
  accuracy : PyNum
  pmlWidth : PyArg
  pmlFreq : Option PyNum
  maxVel : Option PyNum
  surveyPad : SurveyPad
  wfc : Option (WfT d)
  wfp : Option (WfT d)
  psi : Fin d → Option (WfT d)
  zeta : Fin d → Option (WfT d)
  origin : Option (List ℤ)
  nt : Option PyNum
  interval : PyNum
  freqTaperFrac : PyNum
  timePadFrac : PyNum
  timeTaper : Bool
  callback : Bool
  callbackFreq : PyNum
  grad : Bool
  /-- tolerance of `_validate_location_tensor` -/
  eps : ℚ

variable {d : ℕ}

/-- `v.abs().max()` (`scalar.py` 458). -/
noncomputable def maxAbs (m : ModelT d ℝ) : ℝ :=
  sSup {x | ∃ s < m.nb.getD 1, ∃ c, InShape m.shape c ∧ x = |m.val s c|}

/-- The model has no elements; `max()` raises. -/
def NoElements (m : ModelT d ℝ) : Prop := m.nb.getD 1 = 0 ∨ ∃ k, m.shape k ≤ 0

/-- The call of `setup_propagator` (`scalar.py` 459-507). -/
noncomputable def UArgs.setup (A : UArgs d) : SetupArgs d :=
  { models := [(A.v, .replicate)], gridSpacing := A.gridSpacing, dt := A.dt, amps := [A.amps]
    srcs := [A.src], rcvs := [A.rcv], accuracy := A.accuracy, staggered := false
    pmlWidth := A.pmlWidth, pmlFreq := A.pmlFreq, maxVel := A.maxVel, maxModelVel := maxAbs A.v
    surveyPad := A.surveyPad
    wfs := [A.wfc, A.wfp] ++ List.ofFn A.psi ++ List.ofFn A.zeta
    origin := A.origin, nt := A.nt, interval := A.interval, freqTaperFrac := A.freqTaperFrac
    timePadFrac := A.timePadFrac, eps := A.eps }

/-- The cell a flat index stands for; the kernels skip negative ones (`scalar.c` 386, 399). -/
def cellOf (n : Fin d → ℤ) (i : ℤ) : Option (Cell d) :=
  if i < 0 then none else some (Storage.unravel n i)

/-- The `j`th tensor of locations. -/
def locAt (l : List IdxT) (j : ℕ) : IdxT := l.getD j ⟨0, 0, fun _ _ => 0⟩

/-- Values of a model for shot `s` (`expand(n_shots, -1)`, `scalar.py` 522-526; the kernels do not
advance by shots if the batch dimension has size 1). -/
def shotModel (ms : List (ModelT d ℝ)) (j s : ℕ) : Fld d ℝ :=
  let m := ms.getD j ⟨none, fun _ => 0, fun _ _ => 0⟩
  m.val (if m.nb.getD 1 = 1 then 0 else s)

/-- All elements of the profiles are finite. -/
def Finite (A : PmlArgs d) : Prop := ∀ k i, (A.ab 0 k i).2 ≠ none ∧ A.db k i ≠ none

/-- What the propagator gets for shot `s`. -/
noncomputable def cfg (ns nr : ℕ) (P : Plan d) (s : ℕ) : Cfg d ns nr ℝ :=
  { acc := P.acc, n := P.n false, w0 := P.w0, w1 := P.w1, dx := P.dx, dt := P.dt
    a := fun k i => ((P.pml false).ab 0 k i).1
    b := fun k i => (((P.pml false).ab 0 k i).2).getD 0
    db := fun k i => ((P.pml false).db k i).getD 0
    v := shotModel P.models 0 s
    src := fun i => cellOf (P.n false) ((locAt P.srcs 0).val s i)
    rcv := fun i => cellOf (P.n false) ((locAt P.rcvs 0).val s i)
    ratio := (P.ratio * P.interval).toNat }

/-- `upsample` and `downsample` after their arguments have been checked. -/
noncomputable def upS (P : Plan d) (tt : Bool) (x : Sig ℝ) : Sig ℝ :=
  match upsample x P.ratio P.ff P.tf tt with
  | .ok u => u
  | .error _ => ⟨0, fun _ => 0⟩

noncomputable def downS (P : Plan d) (tt : Bool) (x : Sig ℝ) : Sig ℝ :=
  match downsample x P.ratio P.ff P.tf tt 0 with
  | .ok u => u
  | .error _ => ⟨0, fun _ => 0⟩

/-- Amplitudes of shot `s` at the internal time steps (`common.py` 1140-1149). -/
noncomputable def upAmps (P : Plan d) (tt : Bool) (a : Option AmpT) (s : ℕ) : ℕ → ℕ → ℝ := fun t i =>
  match a with
  | none => 0
  | some a => (upS P tt ⟨a.nt, a.val s i⟩).val t

/-- Initial wavefields of shot `s`. -/
def UArgs.init (A : UArgs d) (s : ℕ) : Init d ℝ :=
  ⟨A.wfc.map fun w => w.val s, A.wfp.map fun w => w.val s, fun k => (A.psi k).map fun w => w.val s,
    fun k => (A.zeta k).map fun w => w.val s⟩

/-- The outputs of a shot: final wavefields, receiver traces, and what the callback was shown. -/
structure UShot (d : ℕ) where
  out : Wavefields d ℝ
  traces : ℕ → Sig ℝ
  events : List (Event d ℝ)

open Classical in
/-- The part of `scalar` after the setup (`scalar.py` 510-590), for shot `s` with `ns` sources and `nr`
receivers; `none` if the PML profiles are not finite, so that the outputs are not either. -/
noncomputable def UArgs.shot (A : UArgs d) (P : Plan d) (cf : ℤ) (ns nr s : ℕ) :
    Except PyErr (Option (UShot d)) := do
  let C := cfg ns nr P s
  let r ← C.forward A.grad (if A.callback then some cf.toNat else none) P.nt.toNat
    (Born.scaleAmp C fun t i => upAmps P A.timeTaper A.amps s t i) (A.init s)
  return if Finite (P.pml false) then
    some ⟨r.out, fun i => if h : i < nr then
      downS P A.timeTaper ⟨P.nt.toNat, fun t => r.rcd t ⟨i, h⟩⟩ else ⟨0, fun _ => 0⟩, r.events⟩
  else none

open Classical in
/-- `scalar` (`scalar.py` 404-590): the outputs for shot `s`. -/
noncomputable def UArgs.scalar (A : UArgs d) (s : ℕ) : Except PyErr (Option (UShot d)) := do
  let _ ← raiseIf (NoElements A.v) .runtimeError
  let P ← A.setup.plan
  let cf ← checkCallbackFrequency A.callbackFreq
  A.shot P cf (locAt P.srcs 0).n (locAt P.rcvs 0).n s

theorem scalar_ok {A : UArgs d} {s : ℕ} {o : Option (UShot d)} :
    A.scalar s = .ok o ↔ ¬NoElements A.v ∧ ∃ P cf, A.setup.Good P ∧
      checkCallbackFrequency A.callbackFreq = .ok cf ∧
      A.shot P cf (locAt P.srcs 0).n (locAt P.rcvs 0).n s = .ok o := by
  classical
  unfold UArgs.scalar
  simp only [bind_ok, plan_ok]
  constructor
  · rintro ⟨u, h1, P, h2, cf, h3, h4⟩
    refine ⟨?_, P, cf, h2, h3, h4⟩
    cases u
    convert raiseIf_ok.1 h1
  · rintro ⟨h1, P, cf, h2, h3, h4⟩
    exact ⟨(), raiseIf_ok.2 h1, P, h2, cf, h3, h4⟩

end Dw.Scalar
