import Verif.Setup.Shot
import Verif.Born.Model

/-!
# The function `scalar_born`

Models `scalar_born` (`scalar_born.py` 357-590) from the arguments of the user to the returned tensors, as
`Scalar/User.lean` does for `scalar`.
-/

namespace Dw.Born

open Setup Resample
open Dw.Scalar (Cfg Init Wavefields maxAbs NoElements Finite)

variable {d : ℕ}

/-- Wavefields of one field as the user gives them: current and previous, and `psi` and `zeta` of every
dimension. -/
structure UWf (d : ℕ) where
  wfc : Option (WfT d)
  wfp : Option (WfT d)
  psi : Fin d → Option (WfT d)
  zeta : Fin d → Option (WfT d)

def UWf.list (w : UWf d) : List (Option (WfT d)) := [w.wfc, w.wfp] ++ List.ofFn w.psi ++ List.ofFn w.zeta

/-- The wavefields of shot `s`. -/
def UWf.init (w : UWf d) (s : ℕ) : Init d ℝ :=
  ⟨w.wfc.map fun x => x.val s, w.wfp.map fun x => x.val s, fun k => (w.psi k).map fun x => x.val s,
    fun k => (w.zeta k).map fun x => x.val s⟩

/-- The arguments of `scalar_born`. -/
structure UArgs (d : ℕ) where
  v : ModelT d ℝ
  scatter : ModelT d ℝ
  amps : Option AmpT
  src : Option LocT
  rcv : Option LocT
  bgRcv : Option LocT
  wf : UWf d
  wfsc : UWf d
  /-- gradients with respect to the velocity and to the scattering potential will be needed -/
  gradV : Bool
  gradS : Bool
  opts : Opts

/-- The call of `setup_propagator` (`scalar_born.py` 412-491). -/
noncomputable def UArgs.setup (A : UArgs d) : SetupArgs d :=
  A.opts.setup false [(A.v, .replicate), (A.scatter, .constant)] (maxAbs A.v) [A.amps, A.amps]
    [A.src, A.src] [A.bgRcv, A.rcv] (A.wf.list ++ A.wfsc.list)

/-- What the propagator gets. -/
noncomputable def cfgOf (S : ShotIn d) :
    BCfg d (S.src 0).length (S.rcv 0).length (S.rcv 1).length ℝ :=
  { base :=
      { acc := S.pml.acc, n := S.pml.n, w0 := S.pml.w0, w1 := S.pml.w1, dx := S.pml.dx, dt := S.pml.dt
        a := fun k i => (S.pml.ab 0 k i).1
        b := fun k i => ((S.pml.ab 0 k i).2).getD 0
        db := fun k i => (S.pml.db k i).getD 0
        v := S.model 0
        src := (S.src 0).get
        rcv := (S.rcv 0).get
        ratio := S.every }
    scatter := S.model 1
    rcvsc := (S.rcv 1).get }

/-- The outputs of a shot: final wavefields, receiver traces, and what the callback was shown. -/
structure UShot (d : ℕ) where
  out : Wavefields d ℝ
  outsc : Wavefields d ℝ
  bgTraces : ℕ → Sig ℝ
  traces : ℕ → Sig ℝ
  events : List (FEvent d ℝ)

open Classical in
/-- The part of `scalar_born` after the setup (`scalar_born.py` 493-590); `none` if the PML profiles are
not finite, so that the outputs are not either. -/
noncomputable def runWith {ns nr nq : ℕ} (A : UArgs d) (w wsc : Scalar.Init d ℝ) (cf : ℤ) (S : ShotIn d)
    (B : BCfg d ns nr nq ℝ) : Except PyErr (Option (UShot d)) := do
  let r ← B.forward A.gradV A.gradS (A.opts.cb cf) S.nt.toNat
    (scaleAmp B.base fun t i => S.amp 0 t i) (scaleAmpSc B fun t i => S.amp 1 t i) w wsc
  return if Scalar.Finite S.pml then some ⟨r.out, r.outsc, S.traces r.rcd, S.traces r.rcdsc, r.events⟩ else none

/-- The same with the configuration that the setup gives. -/
noncomputable def UArgs.run (A : UArgs d) (w wsc : Init d ℝ) (cf : ℤ) (S : ShotIn d) :
    Except PyErr (Option (UShot d)) := runWith A w wsc cf S (cfgOf S)

/-- `scalar_born` (`scalar_born.py` 357-590): the outputs for shot `s`. -/
noncomputable def UArgs.born (A : UArgs d) (s : ℕ) : Except PyErr (Option (UShot d)) :=
  call (NoElements A.v) A.setup A.opts.timeTaper A.opts.callbackFreq
    (A.run (A.wf.init s) (A.wfsc.init s)) s

end Dw.Born
