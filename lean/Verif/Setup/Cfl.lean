import Mathlib.Analysis.SpecialFunctions.Pow.Real
import Mathlib.Algebra.Order.Floor.Ring
import Verif.Core.Py

/-!
# Internal time step

Models `cfl_condition_n` (`common.py` 2329-2401) and `cfl_condition` (`common.py` 2404-2423), for
real inputs.  Conversion of the arguments to `float` and the warning are not modelled.
-/

namespace Dw.Setup

/-- `max_dt` (`common.py` 2383-2387). -/
noncomputable def maxDt (dx : List ℝ) (v eps cMax : ℝ) : ℝ :=
  (cMax / Real.sqrt (dx.map fun h => 1 / h ^ 2).sum / (v ^ 2 + eps)) * v

/-- `cfl_condition_n` (`common.py` 2329-2401); returns `inner_dt` and `step_ratio`. -/
noncomputable def cflConditionN (dx : List ℝ) (dt v : ℝ) (eps : ℝ := 1e-15) (cMax : ℝ := 0.6) :
    Except PyErr (ℝ × ℤ) :=
  if dx = [] then .error .valueError else
  if ∃ g ∈ dx, g ≤ 0 then .error .valueError else
  if v ≤ 0 then .error .runtimeError else
  let ratio := ⌈|dt| / maxDt dx v eps cMax⌉
  if ratio = 0 then .error .zeroDivision else
  .ok (dt / ratio, ratio)

/-- `cfl_condition` (`common.py` 2404-2423). -/
noncomputable def cflCondition (dy dx dt v : ℝ) : Except PyErr (ℝ × ℤ) := cflConditionN [dy, dx] dt v

end Dw.Setup
