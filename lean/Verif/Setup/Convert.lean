import Mathlib.Analysis.Real.Sqrt
import Mathlib.Analysis.Complex.Trigonometric
import Mathlib.Analysis.Real.Pi.Bounds
import Verif.Core.Py

/-!
# Parameter conversions and the Ricker wavelet
-/

namespace Dw.Setup

/-- `vpvsrho_to_lambmubuoyancy` (`common.py` 2426-2453) at one cell: lambda, mu, buoyancy. -/
noncomputable def toLamb (vp vs rho eps : ℝ) : ℝ × ℝ × ℝ :=
  ((vp ^ 2 - 2 * vs ^ 2) * rho, vs ^ 2 * rho, 1 / (rho ^ 2 + eps) * rho)

/-- `lambmubuoyancy_to_vpvsrho` (`common.py` 2456-2483) at one cell: vp, vs, rho. -/
noncomputable def fromLamb (lamb mu b eps : ℝ) : ℝ × ℝ × ℝ :=
  let vs := √(mu * b)
  (√(lamb * b + 2 * vs ^ 2), vs, 1 / (b ^ 2 + eps) * b)

/-- `ricker` (`wavelets.py` 9-41): number of samples and samples. `torch.arange` raises for a negative
length. -/
noncomputable def ricker (freq : ℝ) (length : ℤ) (dt peakTime : ℝ) : Except PyErr (ℕ × (ℕ → ℝ)) := by
  classical exact
    if dt = 0 then .error .valueError
    else if length < 0 then .error .runtimeError
    else .ok (length.toNat, fun i =>
      let t := i * dt - peakTime
      (1 - 2 * Real.pi ^ 2 * freq ^ 2 * t ^ 2) * Real.exp (-(Real.pi ^ 2) * freq ^ 2 * t ^ 2))

end Dw.Setup
