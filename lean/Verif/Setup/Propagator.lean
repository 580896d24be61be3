import Verif.Setup.Cfl
import Verif.Setup.Pml
import Verif.Setup.Validate
import Verif.Resample.Model

/-!
# `setup_propagator`

Models `setup_propagator` (`common.py` 412-628), which all propagators call first.  Python numbers are
as in `Setup/Validate.lean`; `dt` is a `float`.  Elements of tensors are real numbers.  The tensors have
the ranks that `get_ndim` (modelled in `Setup/Validate.lean`) has checked, are on one device and have one
data type.  Warnings are not modelled.
-/

namespace Dw.Setup

open Dw.Resample (Sig)

/-- `do` blocks of functions that may raise. -/
theorem bind_ok {α β : Type} {x : Except PyErr α} {f : α → Except PyErr β} {r : β} :
    x >>= f = .ok r ↔ ∃ a, x = .ok a ∧ f a = .ok r := by
  cases x with
  | error e => simp [bind, Except.bind]
  | ok a => simp [bind, Except.bind]

/-- A tensor of source amplitudes of shape `[nb, n, nt]`. -/
structure AmpT where
  nb : ℕ
  n : ℕ
  nt : ℕ
  val : ℕ → ℕ → ℕ → ℝ

/-- A wavefield tensor of shape `[nb, *shape]`. -/
structure WfT (d : ℕ) where
  nb : ℕ
  shape : Fin d → ℤ
  val : ℕ → (Fin d → ℤ) → ℝ

/-- The arguments of `setup_propagator`. -/
structure SetupArgs (d : ℕ) where
  models : List (ModelT d ℝ × PadMode)
  gridSpacing : PyArg
  dt : ℚ
  amps : List (Option AmpT)
  srcs : List (Option LocT)
  rcvs : List (Option LocT)
  accuracy : PyNum
  /-- `fd_pad` is `[accuracy // 2] * 2` in every dimension if false, `[accuracy // 2, accuracy // 2 - 1]`
  if true. -/
  staggered : Bool
  pmlWidth : PyArg
  pmlFreq : Option PyNum
  maxVel : Option PyNum
  maxModelVel : ℝ
  surveyPad : SurveyPad
  wfs : List (Option (WfT d))
  origin : Option (List ℤ)
  nt : Option PyNum
  interval : PyNum
  freqTaperFrac : PyNum
  timePadFrac : PyNum
  /-- tolerance of `_validate_location_tensor` -/
  eps : ℚ

/-- The results of `setup_propagator` that do not depend on the values of amplitudes and wavefields. -/
structure Plan (d : ℕ) where
  nb : ℕ
  dxL : List ℚ
  maxVel : ℝ
  dt : ℝ
  ratio : ℤ
  accZ : ℤ
  wL : List ℤ
  freq : ℚ
  nt : ℤ
  interval : ℤ
  ff : ℚ
  tf : ℚ
  ext : Fin d → ℤ × ℤ
  models : List (ModelT d ℝ)
  srcs : List IdxT
  rcvs : List IdxT

variable {d : ℕ}

/-- `accuracy` as a stencil. -/
def accOf (z : ℤ) : Acc := if z = 2 then .a2 else if z = 4 then .a4 else if z = 6 then .a6 else .a8

def Plan.acc (P : Plan d) : Acc := accOf P.accZ
def Plan.w0 (P : Plan d) (k : Fin d) : ℤ := P.wL.getD (2 * k) 0
def Plan.w1 (P : Plan d) (k : Fin d) : ℤ := P.wL.getD (2 * k + 1) 0
def Plan.dx (P : Plan d) (k : Fin d) : ℝ := (P.dxL.getD k 0 : ℚ)

/-- `fd_pad` at the end (`scalar.py` 459, `acoustic.py` 443, `elastic.py` 826). -/
def fdEnd (staggered : Bool) (acc : Acc) : ℤ := if staggered then acc.pad - 1 else acc.pad

/-- `pad[2 * k]`, `pad[2 * k + 1]` (`common.py` 1533). -/
def padBegin (accZ : ℤ) (wL : List ℤ) (k : Fin d) : ℤ := (accOf accZ).pad + wL.getD (2 * k) 0
def padEnd (staggered : Bool) (accZ : ℤ) (wL : List ℤ) (k : Fin d) : ℤ :=
  fdEnd staggered (accOf accZ) + wL.getD (2 * k + 1) 0

/-- Size of the padded arrays. -/
def Plan.n (P : Plan d) (staggered : Bool) : Fin d → ℤ :=
  paddedShape P.ext (padBegin P.accZ P.wL) (padEnd staggered P.accZ P.wL)

/-- The arguments of `set_pml_profiles` (`scalar.py` 533-544, `acoustic.py` 587-598). -/
noncomputable def Plan.pml (P : Plan d) (staggered : Bool) : PmlArgs d :=
  ⟨P.acc, P.acc.pad, fdEnd staggered P.acc, P.w0, P.w1, P.dt, P.dx, P.maxVel, P.freq, P.n staggered⟩

/-- `get_n_batch` (`common.py` 631-658). -/
def getNBatch (srcs : List (Option LocT)) (wfs : List (Option (WfT d))) : Except PyErr ℕ :=
  match srcs.filterMap (Option.map LocT.nb) ++ wfs.filterMap (Option.map WfT.nb) with
  | [] => .error .runtimeError
  | n :: _ => .ok n

/-- `set_max_vel` (`common.py` 857-889) for a model of real numbers; `setMaxVel_cast` says that it is
`setMaxVel`. -/
noncomputable def setMaxVelR (v : Option PyNum) (model : ℝ) : Except PyErr ℝ :=
  match v with
  | none => .ok model
  | some x => match x.toFloat with
    | none => .error .typeError
    | some q => if |q| ≤ 0 then .error .valueError else .ok (|q| : ℚ)

/-- The checks of `set_source_amplitudes` (`common.py` 1111-1139) and those of `upsample`, which is
called for every tensor. -/
noncomputable def checkAmps (amps : List (Option AmpT)) (nb : ℕ) (nt ratio : ℤ) (ff tf : ℚ) :
    Except PyErr Unit :=
  firstErr (amps.flatMap fun o => match o with
    | none => []
    | some a => [raiseIf (a.nb ≠ nb) .runtimeError, raiseIf (a.nt * ratio ≠ nt) .runtimeError,
        Resample.validate ratio ff tf])

/-- `extract_models` (`common.py` 2012-2087). -/
def extractModels (shape0 : Fin d → ℤ) (ext : Fin d → ℤ × ℤ) (pad : List ℤ) (nBatch : ℕ) :
    List (ModelT d ℝ × PadMode) → Except PyErr (List (ModelT d ℝ))
  | [] => .ok []
  | m :: ms => do
      let x ← extractModel m.1 shape0 ext pad m.2 nBatch
      let xs ← extractModels shape0 ext pad nBatch ms
      return x :: xs

/-- `prepare_wavefields` (`common.py` 2248-2326). -/
def prepareWavefields (wfs : List (Option (WfT d))) (ext : Fin d → ℤ × ℤ) (w0 w1 : Fin d → ℤ)
    (nb : ℕ) : Except PyErr Unit :=
  firstErr (wfs.flatMap fun o => match o with
    | none => []
    | some w => [raiseIf (w.nb ≠ nb) .runtimeError,
        raiseIf (w.shape ≠ fun k => (ext k).2 - (ext k).1 + w0 k + w1 k) .runtimeError])

/-- Spatial shape of the first model. -/
def SetupArgs.shape (A : SetupArgs d) : Fin d → ℤ :=
  match A.models with
  | [] => fun _ => 0
  | m :: _ => m.1.shape

/-- `setup_propagator` (`common.py` 551-628). -/
noncomputable def SetupArgs.plan (A : SetupArgs d) : Except PyErr (Plan d) := do
  let nb ← getNBatch A.srcs A.wfs
  let dxL ← setGridSpacing A.gridSpacing d
  let maxVel ← setMaxVelR A.maxVel A.maxModelVel
  let c ← cflConditionN (dxL.map fun q : ℚ => (q : ℝ)) A.dt maxVel
  let accZ ← setAccuracy A.accuracy
  let wL ← setPmlWidth A.pmlWidth d
  let freq ← setPmlFreq A.pmlFreq (.float (A.dt / c.2))
  let nt ← setNt A.nt (A.amps.map (Option.map AmpT.nt)) c.2
  let interval ← setInterval A.interval
  let ff ← setFrac A.freqTaperFrac
  let tf ← setFrac A.timePadFrac
  let _ ← checkAmpsMatch (A.amps.map (Option.map AmpT.n)) (A.srcs.map (Option.map LocT.n))
  let _ ← checkAmps A.amps nb nt c.2 ff tf
  let ext ← surveyExtents A.shape (A.srcs ++ A.rcvs) (A.wfs.map (Option.map WfT.shape)) A.surveyPad
    A.origin (fun k => wL.getD (2 * k) 0) (fun k => wL.getD (2 * k + 1) 0)
  let models ← extractModels A.shape ext (padList (d := d) (padBegin accZ wL) (padEnd A.staggered accZ wL)) nb
    A.models
  let srcs ← extractLocations A.eps ext (padBegin accZ wL) (padEnd A.staggered accZ wL) nb A.srcs
  let rcvs ← extractLocations A.eps ext (padBegin accZ wL) (padEnd A.staggered accZ wL) nb A.rcvs
  let _ ← prepareWavefields A.wfs ext (fun k => wL.getD (2 * k) 0) (fun k => wL.getD (2 * k + 1) 0) nb
  return ⟨nb, dxL, maxVel, c.1, c.2, accZ, wL, freq, nt, interval, ff, tf, ext, models, srcs, rcvs⟩

/-- What a successful setup has checked and computed. -/
structure SetupArgs.Good (A : SetupArgs d) (P : Plan d) : Prop where
  nb : getNBatch A.srcs A.wfs = .ok P.nb
  dx : setGridSpacing A.gridSpacing d = .ok P.dxL
  maxVel : setMaxVelR A.maxVel A.maxModelVel = .ok P.maxVel
  cfl : cflConditionN (P.dxL.map fun q : ℚ => (q : ℝ)) A.dt P.maxVel = .ok (P.dt, P.ratio)
  acc : setAccuracy A.accuracy = .ok P.accZ
  width : setPmlWidth A.pmlWidth d = .ok P.wL
  freq : setPmlFreq A.pmlFreq (.float (A.dt / P.ratio)) = .ok P.freq
  nt : setNt A.nt (A.amps.map (Option.map AmpT.nt)) P.ratio = .ok P.nt
  interval : setInterval A.interval = .ok P.interval
  ff : setFrac A.freqTaperFrac = .ok P.ff
  tf : setFrac A.timePadFrac = .ok P.tf
  ampsMatch : checkAmpsMatch (A.amps.map (Option.map AmpT.n)) (A.srcs.map (Option.map LocT.n)) = .ok ()
  amps : checkAmps A.amps P.nb P.nt P.ratio P.ff P.tf = .ok ()
  ext : surveyExtents A.shape (A.srcs ++ A.rcvs) (A.wfs.map (Option.map WfT.shape)) A.surveyPad
    A.origin P.w0 P.w1 = .ok P.ext
  models : extractModels A.shape P.ext (padList (d := d) (padBegin P.accZ P.wL) (padEnd A.staggered P.accZ P.wL))
    P.nb A.models = .ok P.models
  srcs : extractLocations A.eps P.ext (padBegin P.accZ P.wL) (padEnd A.staggered P.accZ P.wL) P.nb
    A.srcs = .ok P.srcs
  rcvs : extractLocations A.eps P.ext (padBegin P.accZ P.wL) (padEnd A.staggered P.accZ P.wL) P.nb
    A.rcvs = .ok P.rcvs
  wfs : prepareWavefields A.wfs P.ext P.w0 P.w1 P.nb = .ok ()

theorem plan_ok {A : SetupArgs d} {P : Plan d} : A.plan = .ok P ↔ A.Good P := by
  unfold SetupArgs.plan
  constructor
  · intro h
    simp only [bind_ok] at h
    obtain ⟨nb, h1, dxL, h2, mv, h3, c, h4, accZ, h5, wL, h6, fr, h7, nt, h8, iv, h9, ff, h10, tf, h11,
      _, h12, _, h13, ext, h14, ms, h15, ss, h16, rs, h17, _, h18, h⟩ := h
    simp only [pure, Except.pure, Except.ok.injEq] at h
    subst h
    exact ⟨h1, h2, h3, h4, h5, h6, h7, h8, h9, h10, h11, h12, h13, h14, h15, h16, h17, h18⟩
  · intro h
    simp only [bind_ok]
    exact ⟨_, h.nb, _, h.dx, _, h.maxVel, _, h.cfl, _, h.acc, _, h.width, _, h.freq, _, h.nt, _,
      h.interval, _, h.ff, _, h.tf, _, h.ampsMatch, _, h.amps, _, h.ext, _, h.models, _, h.srcs, _,
      h.rcvs, _, h.wfs, rfl⟩

/-- On rational numbers `setMaxVelR` is `setMaxVel`. -/
theorem setMaxVel_cast (v : Option PyNum) (m : ℚ) :
    setMaxVelR v m = (setMaxVel v (.float m)).map fun q : ℚ => (q : ℝ) := by
  unfold setMaxVelR setMaxVel
  cases v with
  | none => rfl
  | some x =>
      cases h : x.toFloat with
      | none => simp [h, Except.map]
      | some q =>
          simp only [h, show (PyNum.float m).toFloat = some m from rfl]
          split_ifs <;> rfl

end Dw.Setup
