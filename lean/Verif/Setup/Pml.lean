import Mathlib.Analysis.SpecialFunctions.Log.Basic
import Mathlib.Analysis.Real.Pi.Bounds
import Mathlib.Data.Fintype.Lattice
import Verif.Core.Stencil

/-!
# PML profiles

Models `setup_pml` (`common.py` 2486-2554), `regular_grid.set_pml_profiles` (`regular_grid.py`
16-76) and `staggered_grid.set_pml_profiles` (`staggered_grid.py` 14-91).  A tensor element is
`none` if it is not a finite number (division by zero).
-/

namespace Dw.Setup

/-- Tensor division: `none` if the divisor is zero (IEEE infinity or NaN). -/
noncomputable def tdiv (x y : ℝ) : Option ℝ := if y = 0 then none else some (x / y)

/-- One PML side: width and start position (`common.py` 2537-2544); `s` is the sign of the
outward direction. -/
noncomputable def pmlFracSide (w : ℤ) (dist : ℝ) : ℝ := if w = 0 then 0 else dist / w

/-- `pml_frac` (`common.py` 2536-2545) at coordinate `x`. -/
noncomputable def pmlFrac (w0 w1 : ℤ) (s0 s1 x : ℝ) : ℝ :=
  min 1 (max 0 (max (pmlFracSide w0 (s0 - x)) (pmlFracSide w1 (x - s1))))

/-- `setup_pml` (`common.py` 2486-2554) at array position `i`; `start` is the coordinate of the first
element. -/
noncomputable def setupPml (w0 w1 : ℤ) (s0 s1 maxPml dt maxVel freq start : ℝ) (i : ℤ) : ℝ × Option ℝ :=
  let alpha0 := Real.pi * freq
  if maxPml = 0 then (0, some 0) else
  let sigma0 := -(1 + 2) * maxVel * Real.log 0.001 / (2 * maxPml)
  let frac := pmlFrac w0 w1 s0 s1 (start + i)
  let sigma := sigma0 * frac ^ 2
  let alpha := alpha0 * (1 - frac)
  let a := Real.exp (-(sigma + alpha) * |dt|)
  let b := (tdiv sigma (sigma + alpha)).map fun q => q * (a - 1)
  (if frac = 0 then 0 else a, b)

/-- `max(physical_widths)` (`regular_grid.py` 54-58): the widths of all sides in units of distance;
`0` if there are no dimensions. -/
noncomputable def maxPml {d : ℕ} (w0 w1 : Fin d → ℤ) (dx : Fin d → ℝ) : ℝ :=
  (List.ofFn fun k => max (w0 k * dx k) (w1 k * dx k)).foldr max 0

/-- The arguments of `set_pml_profiles`. -/
structure PmlArgs (d : ℕ) where
  acc : Acc
  pad0 : ℤ
  pad1 : ℤ
  w0 : Fin d → ℤ
  w1 : Fin d → ℤ
  dt : ℝ
  dx : Fin d → ℝ
  maxVel : ℝ
  freq : ℝ
  n : Fin d → ℤ

variable {d : ℕ}

/-- Profiles `a` and `b` along dimension `k` (`regular_grid.py` 47-71, `staggered_grid.py` 46-88);
`start` is `0` on the regular grid, `0` and `0.5` on the staggered grid. -/
noncomputable def PmlArgs.ab (A : PmlArgs d) (start : ℝ) (k : Fin d) (i : ℤ) : ℝ × Option ℝ :=
  setupPml (A.w0 k) (A.w1 k) (A.pad0 + A.w0 k) (A.n k - 1 - A.pad1 - A.w1 k) (maxPml A.w0 A.w1 A.dx)
    A.dt A.maxVel A.freq start i

/-- `diffx1(b, accuracy, 1 / dx)` (`regular_grid.py` 72); `none` if a stencil point is not finite. -/
noncomputable def PmlArgs.db (A : PmlArgs d) (k : Fin d) (i : ℤ) : Option ℝ := by
  classical exact
    if (A.acc.pad : ℤ) ≤ i ∧ i < A.n k - A.acc.pad ∧
      ∃ j : ℤ, j ≠ 0 ∧ -A.acc.pad ≤ j ∧ j ≤ A.acc.pad ∧ (A.ab 0 k (i + j)).2 = none then none
    else some (pyDiff1 A.acc (A.n k) (1 / A.dx k) (fun i => ((A.ab 0 k i).2).getD 0) i)

end Dw.Setup
