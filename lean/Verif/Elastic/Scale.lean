import Verif.Acoustic.Model
import Verif.Elastic.Model
import Verif.Born.Model

/-!
# Scaling of the source amplitudes of the acoustic and elastic propagators
-/

namespace Dw.Acoustic

open Dw.Born (gatherAt)

variable {d np mp : ℕ} {nv mv : Fin d → ℕ} {R : Type*} [Field R]

/-- Amplitudes of pressure sources (`acoustic.py` 561-585, `models[0]`). -/
def scaleAmpP (C : Cfg d np mp nv mv R) (a : ℕ → Fin np → R) : ℕ → Fin np → R := fun t i =>
  a t i * gatherAt C.K (C.srcP i) * C.dt

/-- Amplitudes of sources of velocity component `k` (`acoustic.py` 561-585, `models[1:]`). -/
def scaleAmpV (C : Cfg d np mp nv mv R) (a : (k : Fin d) → ℕ → Fin (nv k) → R) :
    (k : Fin d) → ℕ → Fin (nv k) → R := fun k t i => a k t i * gatherAt (C.B k) (C.srcV k i) * C.dt

end Dw.Acoustic

namespace Dw.Elastic

open Dw.Born (gatherAt)

variable {d np mp : ℕ} {nv mv : Fin d → ℕ} {R : Type*} [Field R]

/-- Amplitudes of pressure sources (`elastic.py` 971-976). -/
def scaleAmpP (C : Cfg d np mp nv mv R) (a : ℕ → Fin np → R) : ℕ → Fin np → R := fun t i =>
  -a t i * C.dt

/-- Amplitudes of sources of velocity component `k` (`elastic.py` 924-970). -/
def scaleAmpV (C : Cfg d np mp nv mv R) (a : (k : Fin d) → ℕ → Fin (nv k) → R) :
    (k : Fin d) → ℕ → Fin (nv k) → R := fun k t i => a k t i * gatherAt (C.B k) (C.srcV k i) * C.dt

end Dw.Elastic
