import Verif.Acoustic.User
import Verif.Setup.Convert
import Verif.Elastic.Energy

/-!
# The function `elastic`

Models `elastic` (`elastic.py` 600-1085) from the arguments of the user to the returned tensors, as
`Scalar/User.lean` does for `scalar`.  The order of the list of wavefields is not that of the code: it has
no effect on the setup, which only uses the number of shots and the shape (the same for all wavefields).
-/

namespace Dw.Elastic

open Setup Resample
open Dw.Scalar (NoElements)
open Dw.Acoustic (Finite)

variable {d : ℕ}

/-- The wavefields as the user gives them. -/
structure UWf (d : ℕ) where
  v : Fin d → Option (WfT d)
  s : Fin d → Option (WfT d)
  sh : Sh d → Option (WfT d)
  mv : Fin d → Fin d → Option (WfT d)
  ms : Fin d → Fin d → Option (WfT d)

/-- `initial_wavefields` (`elastic.py` 700-768). -/
def UWf.list (w : UWf d) : List (Option (WfT d)) :=
  List.ofFn w.v ++ List.ofFn w.s ++
    (List.finRange d).flatMap (fun i => List.ofFn fun j => if h : i < j then w.sh ⟨(i, j), h⟩ else none) ++
    (List.finRange d).flatMap (fun i => List.ofFn (w.mv i)) ++
    (List.finRange d).flatMap (fun i => List.ofFn (w.ms i))

/-- The wavefields of shot `s`. -/
def UWf.init (w : UWf d) (s : ℕ) : Init d ℝ :=
  ⟨fun i => (w.v i).map fun x => x.val s, fun i => (w.s i).map fun x => x.val s,
    fun i => (w.sh i).map fun x => x.val s, fun i j => (w.mv i j).map fun x => x.val s,
    fun i j => (w.ms i j).map fun x => x.val s⟩

/-- The arguments of `elastic`. -/
structure UArgs (d : ℕ) where
  lam : ModelT d ℝ
  mu : ModelT d ℝ
  buoyancy : ModelT d ℝ
  ampV : Fin d → Option AmpT
  ampP : Option AmpT
  srcV : Fin d → Option LocT
  srcP : Option LocT
  rcvV : Fin d → Option LocT
  rcvP : Option LocT
  wf : UWf d
  /-- gradients with respect to the Lamé parameters and to the buoyancies will be needed -/
  gradL : Bool
  gradM : Bool
  gradB : Bool
  /-- `1 / torch.finfo(dtype).max ** (1 / 2)` (`elastic.py` 36) -/
  rfmax : ℝ
  opts : Opts

/-- `max(vp.abs().max().item(), vs.abs().max().item())` (`elastic.py` 806-811).  The models are assumed to
have the same shape, which the setup checks, and numbers under the square roots that are not negative. -/
noncomputable def UArgs.maxModelVel (A : UArgs d) : ℝ :=
  sSup {x | ∃ s c, s < max (A.lam.nb.getD 1) (max (A.mu.nb.getD 1) (A.buoyancy.nb.getD 1)) ∧
    InShape A.lam.shape c ∧
    (x = |(fromLamb (A.lam.shot s c) (A.mu.shot s c) (A.buoyancy.shot s c) 0).1| ∨
      x = |(fromLamb (A.lam.shot s c) (A.mu.shot s c) (A.buoyancy.shot s c) 0).2.1|)}

/-- The call of `setup_propagator` (`elastic.py` 730-874). -/
noncomputable def UArgs.setup (A : UArgs d) : SetupArgs d :=
  A.opts.setup true [(A.lam, .replicate), (A.mu, .replicate), (A.buoyancy, .replicate)] A.maxModelVel
    (List.ofFn A.ampV ++ [A.ampP]) (List.ofFn A.srcV ++ [A.srcP]) (List.ofFn A.rcvV ++ [A.rcvP]) A.wf.list

/-- What the propagator gets, after `prepare_parameters` (`elastic.py` 23-124, 914-915). -/
noncomputable def cfgOf (rfmax : ℝ) (S : ShotIn d) :
    Cfg d (S.src d).length (S.rcv d).length (fun k => (S.src k).length) (fun k => (S.rcv k).length) ℝ :=
  { acc := S.pml.acc, n := S.pml.n, w0 := S.pml.w0, w1 := S.pml.w1, dx := S.pml.dx, dt := S.pml.dt
    a := fun k i => (S.pml.ab 0 k i).1
    b := fun k i => ((S.pml.ab 0 k i).2).getD 0
    ah := fun k i => (S.pml.ab (1 / 2) k i).1
    bh := fun k i => ((S.pml.ab (1 / 2) k i).2).getD 0
    lam := S.model 0
    mu := S.model 1
    muS := prepareMuS S.pml.n rfmax (S.model 1)
    B := prepareB S.pml.n rfmax (S.model 2)
    srcP := (S.src d).get
    srcV := fun k => (S.src k).get
    rcvP := (S.rcv d).get
    rcvV := fun k => (S.rcv k).get
    ratio := S.every }

/-- The outputs of a shot: final wavefields, receiver traces, and what the callback was shown. -/
structure UShot (d : ℕ) where
  out : Wavefields d ℝ
  tracesV : Fin d → ℕ → Sig ℝ
  tracesP : ℕ → Sig ℝ
  events : List (Event d ℝ)

open Classical in
/-- The part of `elastic` after the setup (`elastic.py` 914-1085; the order of the returned wavefields is
the subject of `C54`); `none` if the PML profiles are not finite, so that the outputs are not either. -/
noncomputable def runWith {np mp : ℕ} {nv mv : Fin d → ℕ} (A : UArgs d) (w : Init d ℝ) (cf : ℤ)
    (S : ShotIn d) (C : Cfg d np mp nv mv ℝ) : Except PyErr (Option (UShot d)) := do
  let r ← C.forward A.gradL A.gradM A.gradB (A.opts.cb cf) S.nt.toNat
    (scaleAmpP C fun t i => S.amp d t i) (scaleAmpV C fun k t i => S.amp k t i) w
  return if Finite S.pml then 
    some ⟨r.out, fun k => S.traces (r.rcdV k),
      fun i => ⟨(S.traces r.rcdP i).len, fun t => -(S.traces r.rcdP i).val t / d⟩, r.events⟩
  else none

/-- The same with the configuration that the setup gives. -/
noncomputable def UArgs.run (A : UArgs d) (w : Init d ℝ) (cf : ℤ) (S : ShotIn d) :
    Except PyErr (Option (UShot d)) := runWith A w cf S (cfgOf A.rfmax S)

/-- What is checked before the setup (`elastic.py` 770-793, 806-811). -/
def UArgs.Pre (A : UArgs d) : Prop :=
  (∃ k l, (A.srcV k = some l ∨ A.rcvV k = some l) ∧ l.Beyond k (A.lam.shape k)) ∨
    NoElements A.lam ∨ NoElements A.mu ∨ NoElements A.buoyancy

/-- `elastic` (`elastic.py` 600-1085): the outputs for shot `s`. -/
noncomputable def UArgs.elastic (A : UArgs d) (s : ℕ) : Except PyErr (Option (UShot d)) :=
  call A.Pre A.setup A.opts.timeTaper A.opts.callbackFreq (A.run (A.wf.init s)) s

end Dw.Elastic
