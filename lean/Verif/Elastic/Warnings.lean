import Verif.Elastic.User
import Verif.Setup.Warnings

/-!
# The smallest velocity that `elastic` checks the wavelength of (`elastic.py` 801-824)

`setup_propagator` is given the smallest of the P and S wave speeds that are not zero.
-/

namespace Dw.Elastic

open Dw Dw.Setup

variable {d : ℕ}

/-- The P and S wave speeds at a cell (`elastic.py` 806-810). -/
noncomputable def UArgs.vp (A : UArgs d) (s : ℕ) (c : Cell d) : ℝ :=
  (fromLamb (A.lam.shot s c) (A.mu.shot s c) (A.buoyancy.shot s c) 0).1

noncomputable def UArgs.vs (A : UArgs d) (s : ℕ) (c : Cell d) : ℝ :=
  (fromLamb (A.lam.shot s c) (A.mu.shot s c) (A.buoyancy.shot s c) 0).2.1

/-- The numbers of shots of the broadcast models. -/
def UArgs.nbs (A : UArgs d) : ℕ := max (A.lam.nb.getD 1) (max (A.mu.nb.getD 1) (A.buoyancy.nb.getD 1))

/-- `vp_nonzero.abs().min().item()`, or zero if all are zero (`elastic.py` 812-819). -/
noncomputable def UArgs.minVel (A : UArgs d) (v : ℕ → Cell d → ℝ) : ℝ :=
  sInf {x | ∃ s < A.nbs, ∃ c, InShape A.lam.shape c ∧ v s c ≠ 0 ∧ x = |v s c|}

/-- `min_nonzero_model_vel` (`elastic.py` 820-827). -/
noncomputable def UArgs.minNonzero (A : UArgs d) : ℝ :=
  open Classical in
  if A.minVel A.vp = 0 ∧ A.minVel A.vs = 0 then 0
  else if A.minVel A.vp = 0 then A.minVel A.vs
  else if A.minVel A.vs = 0 then A.minVel A.vp
  else min (A.minVel A.vp) (A.minVel A.vs)

end Dw.Elastic
