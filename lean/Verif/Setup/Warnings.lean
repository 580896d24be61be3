import Verif.Setup.Propagator
import Verif.Setup.SurveyLemmas

/-!
# Warnings of `setup_propagator`

`setup_propagator` again, now with the warnings that it issues, in the order in which it issues them, and with
`check_points_per_wavelength`.
-/

namespace Dw.Setup

/-- The warnings of `common.py` that a call can cause. -/
inductive Warning
  /-- `set_pml_freq` (844) -/
  | freqDefault
  /-- `set_pml_freq` (850) -/
  | freqNyquist
  /-- `set_max_vel` (888) -/
  | maxVelLow
  /-- `check_points_per_wavelength` (1174) -/
  | pointsSkipped
  /-- `check_points_per_wavelength` (1191) -/
  | fewPoints
  /-- `extents_from_wavefields` (1876) -/
  | originMissing
  /-- `cfl_condition_n` (2393) -/
  | manySteps
  deriving DecidableEq

variable {d : ℕ}

/-- `if c: warnings.warn(…)`. -/
def warnIf (c : Prop) [Decidable c] (w : Warning) : List Warning := if c then [w] else []

/-- `max(…)` of a list that is not empty. -/
def maxList (l : List ℚ) : ℚ := l.foldr max 0

/-- `v_nonzero.abs().min()`, or zero if no element is different from zero (`scalar.py` 452-456, `scalar_born.py`
431-435, `acoustic.py` 436-440): the infimum of no numbers is zero here. -/
noncomputable def minNonzero (m : ModelT d ℝ) : ℝ :=
  sInf {x | ∃ s < m.nb.getD 1, ∃ c, InShape m.shape c ∧ m.val s c ≠ 0 ∧ x = |m.val s c|}

/-- `check_points_per_wavelength` (`common.py` 1153-1197).  With `pml_freq = 0` the wavelength is infinite. -/
noncomputable def checkPoints (vmin : ℝ) (freq : ℚ) (dxL : List ℚ) : Except PyErr (List Warning) :=
  open Classical in
  if vmin = 0 then .ok [.pointsSkipped]
  else if vmin < 0 then .error .valueError
  else if freq < 0 then .error .valueError
  else if dxL.any (· ≤ 0) then .error .valueError
  else if dxL = [] then .error .valueError
  else if freq = 0 then .ok []
  else .ok (warnIf (|vmin / freq| / (maxList (dxL.map abs) : ℚ) < 6) .fewPoints)

/-- Line 887-888. -/
noncomputable def warnMaxVel (v : Option PyNum) (model : ℝ) : List Warning :=
  open Classical in
  match v.bind PyNum.toFloat with
  | none => []
  | some q => warnIf (((|q| : ℚ) : ℝ) < model) .maxVelLow

/-- Lines 842-853. -/
def warnFreq (f : Option PyNum) (freq dt : ℚ) : List Warning :=
  warnIf (f.isNone = true) .freqDefault ++ warnIf (freq > 0.5 / |dt|) .freqNyquist

/-- Line 1875, which is reached if `survey_pad` is `None` and a wavefield is given. -/
def warnOrigin (sp : SurveyPad) (wfs : List (Option (WfT d))) (origin : Option (List ℤ)) : List Warning :=
  match sp with
  | .none => warnIf (wfs.any Option.isSome = true ∧ origin.isNone = true) .originMissing
  | _ => []

/-- `setup_propagator` (`common.py` 551-628) with `min_nonzero_model_vel` and the warnings. -/
noncomputable def SetupArgs.planW (A : SetupArgs d) (vmin : ℝ) : Except PyErr (Plan d × List Warning) := do
  let nb ← getNBatch A.srcs A.wfs
  let dxL ← setGridSpacing A.gridSpacing d
  let maxVel ← setMaxVelR A.maxVel A.maxModelVel
  let c ← cflConditionN (dxL.map fun q : ℚ => (q : ℝ)) A.dt maxVel
  let accZ ← setAccuracy A.accuracy
  let wL ← setPmlWidth A.pmlWidth d
  let freq ← setPmlFreq A.pmlFreq (.float (A.dt / c.2))
  let points ← checkPoints vmin freq dxL
  let nt ← setNt A.nt (A.amps.map (Option.map AmpT.nt)) c.2
  let interval ← setInterval A.interval
  let ff ← setFrac A.freqTaperFrac
  let tf ← setFrac A.timePadFrac
  let _ ← checkAmpsMatch (A.amps.map (Option.map AmpT.n)) (A.srcs.map (Option.map LocT.n))
  let _ ← checkAmps A.amps nb nt c.2 ff tf
  let ext ← surveyExtents A.shape (A.srcs ++ A.rcvs) (A.wfs.map (Option.map WfT.shape)) A.surveyPad
    A.origin (fun k => wL.getD (2 * k) 0) (fun k => wL.getD (2 * k + 1) 0)
  let models ← extractModels A.shape ext (padList (d := d) (padBegin accZ wL) (padEnd A.staggered accZ wL)) nb
    A.models
  let srcs ← extractLocations A.eps ext (padBegin accZ wL) (padEnd A.staggered accZ wL) nb A.srcs
  let rcvs ← extractLocations A.eps ext (padBegin accZ wL) (padEnd A.staggered accZ wL) nb A.rcvs
  let _ ← prepareWavefields A.wfs ext (fun k => wL.getD (2 * k) 0) (fun k => wL.getD (2 * k + 1) 0) nb
  return (⟨nb, dxL, maxVel, c.1, c.2, accZ, wL, freq, nt, interval, ff, tf, ext, models, srcs, rcvs⟩,
    warnMaxVel A.maxVel A.maxModelVel ++ warnIf (20 ≤ c.2) .manySteps ++
      warnFreq A.pmlFreq freq (A.dt / c.2) ++ points ++ warnOrigin A.surveyPad A.wfs A.origin)

end Dw.Setup
