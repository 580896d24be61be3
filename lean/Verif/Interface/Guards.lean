import Verif.Interface.Module
import Verif.Setup.Validate

/-!
# The first statements of the propagator functions

Before anything else `scalar`, `scalar_born`, `acoustic` and `elastic` refuse tensors that are batched by
`vmap` (except models), find the number of dimensions from the ranks of their arguments, refuse
locations of dimensions that the call does not have (`acoustic` and `elastic`), and collect the
arguments for `setup_propagator` in lists.  The lists of arguments are tables of names.  Every optional
argument is `None` or a tensor (`get_ndim` raises `TypeError` on anything else).
-/

namespace Dw.Interface

open Setup (NdimArgs getNdim)

/-- What is looked at in a tensor: `t.ndim`, `t.shape[-1]` and whether it is batched. -/
structure TensorArg where
  ndim : ℕ
  last : ℕ
  batched : Bool

/-- The arguments of a call by name; `none` is `None`. -/
abbrev TensorArgs := String → Option TensorArg

/-- Exceptions of the first statements. -/
inductive GuardErr
  | notImplemented
  | py (e : PyErr)
  deriving DecidableEq

/-- The lists of arguments: those passed to `check_inputs_not_vmapped`, those passed to `get_ndim`, the
locations refused in fewer dimensions than given, and those passed to `setup_propagator` in `n`
dimensions. -/
structure Guards where
  vmapped : List String
  models : List String
  wavefields : List String
  locations : List String
  z : List String
  y : List String
  x : List String
  axisLocations : List (ℤ × List String)
  amps : ℤ → List String
  srcs : ℤ → List String
  rcvs : ℤ → List String
  wfs : ℤ → List String

/-- `check_inputs_not_vmapped` (`common.py` 2741-2751). -/
def checkInputsNotVmapped (l : List (Option TensorArg)) : Except GuardErr Unit :=
  match l with
  | [] => .ok ()
  | none :: l => checkInputsNotVmapped l
  | some t :: l => if t.batched then .error .notImplemented else checkInputsNotVmapped l

/-- `field.ndim - 1` of the fields that are given (`common.py` 2659-2670, 2690-2703). -/
def fieldRanks (a : TensorArgs) (l : List String) : List ℤ :=
  (l.filterMap a).map fun t => (t.ndim : ℤ) - 1

/-- `location.shape[-1]` of the locations that are given (`common.py` 2671-2687). -/
def locationRanks (a : TensorArgs) (l : List String) : List ℤ :=
  (l.filterMap a).map fun t => (t.last : ℤ)

/-- The arguments of `get_ndim`. -/
def Guards.ndimArgs (G : Guards) (a : TensorArgs) : NdimArgs where
  wavefields := fieldRanks a G.wavefields
  locations := locationRanks a G.locations
  x := fieldRanks a G.x
  y := fieldRanks a G.y
  z := fieldRanks a G.z
  models := (G.models.filterMap a).map fun t => (t.ndim : ℤ)

/-- Locations related to a dimension that the call does not have (`acoustic.py` 388-403, `elastic.py`
697-712). -/
def checkAxisLocations (a : TensorArgs) (n : ℤ) : List (ℤ × List String) → Except GuardErr Unit
  | [] => .ok ()
  | p :: l =>
      if n < p.1 ∧ p.2.any (fun s => (a s).isSome) then .error (.py .valueError)
      else checkAxisLocations a n l

/-- The start of a propagator function: the number of dimensions of the call. -/
def Guards.enter (G : Guards) (a : TensorArgs) : Except GuardErr ℤ :=
  match checkInputsNotVmapped (G.vmapped.map a) with
  | .error e => .error e
  | .ok () => match getNdim (G.ndimArgs a) with
    | .error e => .error (.py e)
    | .ok n => match checkAxisLocations a n G.axisLocations with
      | .error e => .error e
      | .ok () => .ok n

/-- The names of the tensors that `setup_propagator` gets. -/
def Guards.passed (G : Guards) (n : ℤ) : List String := G.amps n ++ G.srcs n ++ G.rcvs n ++ G.wfs n

/-- `if c: l.append(…)`. -/
def listIf (c : Bool) (l : List String) : List String := if c then l else []

/-- `scalar.py` 405-448, 480-503. -/
def scalarGuards : Guards where
  vmapped := ["wavefield_0", "wavefield_m1", "source_amplitudes", "source_locations",
    "receiver_locations", "psiz_m1", "zetaz_m1", "psiy_m1", "zetay_m1", "psix_m1", "zetax_m1"]
  models := ["v"]
  wavefields := ["wavefield_0", "wavefield_m1"]
  locations := ["source_locations", "receiver_locations"]
  z := ["psiz_m1", "zetaz_m1"]
  y := ["psiy_m1", "zetay_m1"]
  x := ["psix_m1", "zetax_m1"]
  axisLocations := []
  amps := fun _ => ["source_amplitudes"]
  srcs := fun _ => ["source_locations"]
  rcvs := fun _ => ["receiver_locations"]
  wfs := fun n => ["wavefield_0", "wavefield_m1"] ++
    (listIf (n = 3) ["psiz_m1"] ++ listIf (2 ≤ n) ["psiy_m1"] ++ listIf (1 ≤ n) ["psix_m1"]) ++
    (listIf (n = 3) ["zetaz_m1"] ++ listIf (2 ≤ n) ["zetay_m1"] ++ listIf (1 ≤ n) ["zetax_m1"])

/-- `scalar_born.py` 358-424, 461-484. -/
def bornGuards : Guards where
  vmapped := ["wavefield_0", "wavefield_m1", "wavefield_sc_0", "wavefield_sc_m1",
    "source_amplitudes", "source_locations", "receiver_locations", "bg_receiver_locations",
    "psiz_m1", "zetaz_m1", "psiz_sc_m1", "zetaz_sc_m1", "psiy_m1", "zetay_m1", "psiy_sc_m1",
    "zetay_sc_m1", "psix_m1", "zetax_m1", "psix_sc_m1", "zetax_sc_m1"]
  models := ["v", "scatter"]
  wavefields := ["wavefield_0", "wavefield_m1", "wavefield_sc_0", "wavefield_sc_m1"]
  locations := ["source_locations", "receiver_locations", "bg_receiver_locations"]
  z := ["psiz_m1", "zetaz_m1", "psiz_sc_m1", "zetaz_sc_m1"]
  y := ["psiy_m1", "zetay_m1", "psiy_sc_m1", "zetay_sc_m1"]
  x := ["psix_m1", "zetax_m1", "psix_sc_m1", "zetax_sc_m1"]
  axisLocations := []
  amps := fun _ => ["source_amplitudes", "source_amplitudes"]
  srcs := fun _ => ["source_locations", "source_locations"]
  rcvs := fun _ => ["bg_receiver_locations", "receiver_locations"]
  wfs := fun n => ["wavefield_0", "wavefield_m1"] ++
    (listIf (n = 3) ["psiz_m1"] ++ listIf (2 ≤ n) ["psiy_m1"] ++ listIf (1 ≤ n) ["psix_m1"]) ++
    (listIf (n = 3) ["zetaz_m1"] ++ listIf (2 ≤ n) ["zetay_m1"] ++ listIf (1 ≤ n) ["zetax_m1"]) ++
    ["wavefield_sc_0", "wavefield_sc_m1"] ++
    (listIf (n = 3) ["psiz_sc_m1"] ++ listIf (2 ≤ n) ["psiy_sc_m1"] ++
      listIf (1 ≤ n) ["psix_sc_m1"]) ++
    (listIf (n = 3) ["zetaz_sc_m1"] ++ listIf (2 ≤ n) ["zetay_sc_m1"] ++
      listIf (1 ≤ n) ["zetax_sc_m1"])

/-- `acoustic.py` 347-427, 445-470, 491-512. -/
def acousticGuards : Guards where
  vmapped := ["pressure_0", "source_amplitudes_p", "source_amplitudes_z", "source_amplitudes_y",
    "source_amplitudes_x", "source_locations_p", "source_locations_z", "source_locations_y",
    "source_locations_x", "receiver_locations_p", "receiver_locations_z", "receiver_locations_y",
    "receiver_locations_x", "vz_0", "phi_z_0", "psi_z_0", "vy_0", "phi_y_0", "psi_y_0", "vx_0",
    "phi_x_0", "psi_x_0"]
  models := ["v", "rho"]
  wavefields := ["pressure_0"]
  locations := ["source_locations_p", "source_locations_z", "source_locations_y",
    "source_locations_x", "receiver_locations_p", "receiver_locations_z", "receiver_locations_y",
    "receiver_locations_x"]
  z := ["vz_0", "phi_z_0", "psi_z_0"]
  y := ["vy_0", "phi_y_0", "psi_y_0"]
  x := ["vx_0", "phi_x_0", "psi_x_0"]
  axisLocations := [(3, ["source_locations_z", "receiver_locations_z"]),
    (2, ["source_locations_y", "receiver_locations_y"])]
  amps := fun n => ["source_amplitudes_p"] ++
    listIf (n = 3) ["source_amplitudes_z", "source_amplitudes_y", "source_amplitudes_x"] ++
    listIf (n = 2) ["source_amplitudes_y", "source_amplitudes_x"] ++
    listIf (n = 1) ["source_amplitudes_x"]
  srcs := fun n => ["source_locations_p"] ++
    listIf (n = 3) ["source_locations_z", "source_locations_y", "source_locations_x"] ++
    listIf (n = 2) ["source_locations_y", "source_locations_x"] ++
    listIf (n = 1) ["source_locations_x"]
  rcvs := fun n => ["receiver_locations_p"] ++
    listIf (n = 3) ["receiver_locations_z", "receiver_locations_y", "receiver_locations_x"] ++
    listIf (n = 2) ["receiver_locations_y", "receiver_locations_x"] ++
    listIf (n = 1) ["receiver_locations_x"]
  wfs := fun n => ["pressure_0"] ++
    listIf (n = 3) ["vz_0"] ++ listIf (2 ≤ n) ["vy_0"] ++ ["vx_0"] ++
    listIf (n = 3) ["phi_z_0"] ++ listIf (2 ≤ n) ["phi_y_0"] ++ ["phi_x_0"] ++
    listIf (n = 3) ["psi_z_0"] ++ listIf (2 ≤ n) ["psi_y_0"] ++ ["psi_x_0"]

/-- `elastic.py` 615-770, 795-797. -/
def elasticGuards : Guards where
  vmapped := ["source_amplitudes_p", "source_amplitudes_z", "source_amplitudes_y",
    "source_amplitudes_x", "source_locations_z", "source_locations_y", "source_locations_x",
    "source_locations_p", "receiver_locations_z", "receiver_locations_y", "receiver_locations_x",
    "receiver_locations_p", "vz_0", "sigmazz_0", "sigmayz_0", "sigmaxz_0", "m_vzz_0", "m_vzy_0",
    "m_vzx_0", "m_vyz_0", "m_vxz_0", "m_sigmazzz_0", "m_sigmayzy_0", "m_sigmaxzx_0",
    "m_sigmayzz_0", "m_sigmaxzz_0", "vy_0", "sigmayy_0", "sigmaxy_0", "m_vyy_0", "m_vyx_0",
    "m_vxy_0", "m_sigmayyy_0", "m_sigmaxyy_0", "m_sigmaxyx_0", "vx_0", "m_vxx_0", "m_sigmaxxx_0"]
  models := ["lamb", "mu", "buoyancy"]
  wavefields := []
  locations := ["source_locations_z", "source_locations_y", "source_locations_x",
    "source_locations_p", "receiver_locations_z", "receiver_locations_y", "receiver_locations_x",
    "receiver_locations_p"]
  z := ["vz_0", "sigmazz_0", "sigmayz_0", "sigmaxz_0", "m_vzz_0", "m_vzy_0", "m_vzx_0", "m_vyz_0",
    "m_vxz_0", "m_sigmazzz_0", "m_sigmayzy_0", "m_sigmaxzx_0", "m_sigmayzz_0", "m_sigmaxzz_0"]
  y := ["vy_0", "sigmayy_0", "sigmaxy_0", "m_vyy_0", "m_vyx_0", "m_vxy_0", "m_sigmayyy_0",
    "m_sigmaxyy_0", "m_sigmaxyx_0"]
  x := ["vx_0", "m_vxx_0", "m_sigmaxxx_0"]
  axisLocations := [(3, ["source_locations_z", "receiver_locations_z"]),
    (2, ["source_locations_y", "receiver_locations_y"])]
  amps := fun n => listIf (3 ≤ n) ["source_amplitudes_z"] ++ listIf (2 ≤ n) ["source_amplitudes_y"] ++
    ["source_amplitudes_x", "source_amplitudes_p"]
  srcs := fun n => listIf (3 ≤ n) ["source_locations_z"] ++ listIf (2 ≤ n) ["source_locations_y"] ++
    ["source_locations_x", "source_locations_p"]
  rcvs := fun n => listIf (3 ≤ n) ["receiver_locations_z"] ++
    listIf (2 ≤ n) ["receiver_locations_y"] ++ ["receiver_locations_x", "receiver_locations_p"]
  wfs := fun n => listIf (3 ≤ n) ["vz_0", "sigmazz_0", "sigmayz_0", "sigmaxz_0", "m_vzz_0",
      "m_vzy_0", "m_vzx_0", "m_vyz_0", "m_vxz_0", "m_sigmazzz_0", "m_sigmayzy_0", "m_sigmaxzx_0",
      "m_sigmayzz_0", "m_sigmaxzz_0"] ++
    listIf (2 ≤ n) ["vy_0", "sigmayy_0", "sigmaxy_0", "m_vyy_0", "m_vyx_0", "m_vxy_0",
      "m_sigmayyy_0", "m_sigmaxyy_0", "m_sigmaxyx_0"] ++
    ["vx_0", "sigmaxx_0", "m_vxx_0", "m_sigmaxxx_0"]

end Dw.Interface
