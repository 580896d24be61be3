import Verif.Setup.Shot
import Verif.Acoustic.Energy
import Verif.Elastic.Scale

/-!
# The function `acoustic`

Models `acoustic` (`acoustic.py` 335-640) from the arguments of the user to the returned tensors, as
`Scalar/User.lean` does for `scalar`.
-/

namespace Dw.Setup

variable {d : ℕ}

/-- A velocity location is too far: its coordinate in dimension `k` is at least the size of the model minus
one (`acoustic.py` 470-495, `elastic.py` 770-793). -/
def LocT.Beyond (l : LocT) (k : ℕ) (size : ℤ) : Prop :=
  ∃ s < l.nb, ∃ i < l.n, l.val s i k ≠ (ignoreLocation : ℚ) ∧ ((size - 1 : ℤ) : ℚ) ≤ l.val s i k

end Dw.Setup

namespace Dw.Acoustic

open Setup Resample
open Dw.Scalar (maxAbs NoElements)

variable {d : ℕ}

/-- The wavefields as the user gives them. -/
structure UWf (d : ℕ) where
  p : Option (WfT d)
  v : Fin d → Option (WfT d)
  phi : Fin d → Option (WfT d)
  psi : Fin d → Option (WfT d)

/-- `initial_wavefields` (`acoustic.py` 405-425). -/
def UWf.list (w : UWf d) : List (Option (WfT d)) :=
  [w.p] ++ List.ofFn w.v ++ List.ofFn w.phi ++ List.ofFn w.psi

/-- The wavefields of shot `s`. -/
def UWf.init (w : UWf d) (s : ℕ) : Init d ℝ :=
  ⟨w.p.map fun x => x.val s, fun k => (w.v k).map fun x => x.val s, fun k => (w.phi k).map fun x => x.val s,
    fun k => (w.psi k).map fun x => x.val s⟩

/-- The arguments of `acoustic`. -/
structure UArgs (d : ℕ) where
  v : ModelT d ℝ
  rho : ModelT d ℝ
  ampP : Option AmpT
  ampV : Fin d → Option AmpT
  srcP : Option LocT
  srcV : Fin d → Option LocT
  rcvP : Option LocT
  rcvV : Fin d → Option LocT
  wf : UWf d
  /-- gradients with respect to the bulk modulus and to the buoyancies will be needed -/
  gradK : Bool
  gradB : Bool
  /-- `1 / torch.finfo(dtype).max ** (1 / 2)` (`acoustic.py` 51) -/
  rfmax : ℝ
  opts : Opts

/-- The call of `setup_propagator` (`acoustic.py` 427-541). -/
noncomputable def UArgs.setup (A : UArgs d) : SetupArgs d :=
  A.opts.setup true [(A.v, .replicate), (A.rho, .replicate)] (maxAbs A.v) (A.ampP :: List.ofFn A.ampV)
    (A.srcP :: List.ofFn A.srcV) (A.rcvP :: List.ofFn A.rcvV) A.wf.list

/-- What the propagator gets, after `prepare_models` (`acoustic.py` 37-88). -/
noncomputable def cfgOf (rfmax : ℝ) (S : ShotIn d) :
    Cfg d (S.src 0).length (S.rcv 0).length (fun k => (S.src (k + 1)).length)
      (fun k => (S.rcv (k + 1)).length) ℝ :=
  { acc := S.pml.acc, n := S.pml.n, w0 := S.pml.w0, w1 := S.pml.w1, dx := S.pml.dx, dt := S.pml.dt
    a := fun k i => (S.pml.ab 0 k i).1
    b := fun k i => ((S.pml.ab 0 k i).2).getD 0
    ah := fun k i => (S.pml.ab (1 / 2) k i).1
    bh := fun k i => ((S.pml.ab (1 / 2) k i).2).getD 0
    K := prepareK (S.model 0) (S.model 1)
    B := prepareB S.pml.n rfmax (S.model 1)
    srcP := (S.src 0).get
    srcV := fun k => (S.src (k + 1)).get
    rcvP := (S.rcv 0).get
    rcvV := fun k => (S.rcv (k + 1)).get
    ratio := S.every }

/-- All elements of the profiles are finite. -/
def Finite (A : PmlArgs d) : Prop := ∀ k i, (A.ab 0 k i).2 ≠ none ∧ (A.ab (1 / 2) k i).2 ≠ none

/-- The outputs of a shot: final wavefields, receiver traces, and what the callback was shown. -/
structure UShot (d : ℕ) where
  out : Wavefields d ℝ
  tracesP : ℕ → Sig ℝ
  tracesV : Fin d → ℕ → Sig ℝ
  events : List (Event d ℝ)

open Classical in
/-- The part of `acoustic` after the setup (`acoustic.py` 559-640); `none` if the PML profiles are not
finite, so that the outputs are not either. -/
noncomputable def runWith {np mp : ℕ} {nv mv : Fin d → ℕ} (A : UArgs d) (w : Init d ℝ) (cf : ℤ)
    (S : ShotIn d) (C : Cfg d np mp nv mv ℝ) : Except PyErr (Option (UShot d)) := do
  let r ← C.forward A.gradK A.gradB (A.opts.cb cf) S.nt.toNat
    (scaleAmpP C fun t i => S.amp 0 t i) (scaleAmpV C fun k t i => S.amp (k + 1) t i) w
  return if Finite S.pml then some ⟨r.out, S.traces r.rcdP, fun k => S.traces (r.rcdV k), r.events⟩ else none

/-- The same with the configuration that the setup gives. -/
noncomputable def UArgs.run (A : UArgs d) (w : Init d ℝ) (cf : ℤ) (S : ShotIn d) :
    Except PyErr (Option (UShot d)) := runWith A w cf S (cfgOf A.rfmax S)

/-- What is checked before the setup (`acoustic.py` 441, 470-495). -/
def UArgs.Pre (A : UArgs d) : Prop :=
  NoElements A.v ∨ ∃ k l, (A.srcV k = some l ∨ A.rcvV k = some l) ∧ l.Beyond k (A.v.shape k)

/-- `acoustic` (`acoustic.py` 335-640): the outputs for shot `s`. -/
noncomputable def UArgs.acoustic (A : UArgs d) (s : ℕ) : Except PyErr (Option (UShot d)) :=
  call A.Pre A.setup A.opts.timeTaper A.opts.callbackFreq (A.run (A.wf.init s)) s

end Dw.Acoustic
