import Verif.Core.Py
import Mathlib.Data.List.Basic
import Mathlib.Data.List.Nodup

/-!
# The propagator classes `Scalar`, `ScalarBorn`, `Acoustic` and `Elastic`

Each class keeps the models and some options from `__init__` and forwards the arguments of `forward`
to the function of the same propagator.  Modelled are the rules by which Python finds the
value of every parameter in a call, the parameters with their defaults, the type checks and
assignments of `__init__`, and the call in `forward`.  Values are abstract (type `V`); a default is
known by its source text, `lit` gives its value; `torch.nn.Parameter(v, requires_grad=f)` is
`parameter v f`.  Every `dt` etc. has the same meaning in both: what a function does with its
parameters is modelled elsewhere.
-/

namespace Dw.Interface

variable {V : Type*}

/-- A parameter of a Python function: its name and the text of its default. -/
structure Param where
  name : String
  dflt : Option String
  deriving DecidableEq

/-- The arguments of a call: by position and by keyword. -/
structure Actuals (V : Type*) where
  pos : List V := []
  kw : List (String × V) := []

/-- The values that a call gives explicitly, by name. -/
def given {W : Type*} (sig : List Param) (pos : List W) (kw : List (String × W)) :
    List (String × W) :=
  (sig.map Param.name).zip pos ++ kw

/-- The value of one parameter: as given, or the default; without either the call fails. -/
def boundOne (lit : String → V) (g : List (String × V)) (p : Param) : Except PyErr (String × V) :=
  match g.lookup p.name, p.dflt with
  | some v, _ => .ok (p.name, v)
  | none, some s => .ok (p.name, lit s)
  | none, none => .error .typeError

/-- The rules of Python for calls (all parameters may be given by position or keyword, as for all
functions considered here): too many positional arguments, a repeated or unknown name, or a missing
value are a `TypeError`. -/
def bindArgs (lit : String → V) (sig : List Param) (a : Actuals V) :
    Except PyErr (List (String × V)) :=
  if sig.length < a.pos.length then .error .typeError
  else if ¬ ((given sig a.pos a.kw).map Prod.fst).Nodup then .error .typeError
  else if ¬ ∀ x ∈ given sig a.pos a.kw, x.1 ∈ sig.map Param.name then .error .typeError
  else sig.mapM (boundOne lit (given sig a.pos a.kw))

/-- What `isinstance` is asked. -/
inductive PyType
  | bool | tensor
  deriving DecidableEq

/-- Right-hand side of an assignment to an attribute in `__init__`: a parameter of `__init__`, or
`torch.nn.Parameter(n, requires_grad=flag)`. -/
inductive InitExpr
  | arg (n : String)
  | param (n flag : String)
  deriving DecidableEq

/-- An argument at the call in `forward`: a parameter of `forward` or an attribute of `self`. -/
inductive SiteExpr
  | arg (n : String)
  | attr (n : String)
  deriving DecidableEq

/-- The parts of Python and PyTorch that the classes use. -/
structure PyOps (V : Type*) where
  lit : String → V
  isinstance : PyType → V → Bool
  parameter : V → V → V

/-- A propagator class: parameters of `__init__` (without `self`), type checks, assignments, parameters
of `forward`, the call of the propagator function, and the parameters of that function. -/
structure ModuleClass where
  initSig : List Param
  checks : List (String × PyType)
  attrs : List (String × InitExpr)
  fwdSig : List Param
  callPos : List SiteExpr
  callKw : List (String × SiteExpr)
  funSig : List Param

/-- A variable that is not bound: `NameError`/`AttributeError`. -/
def getVar (e : List (String × V)) (n : String) : Except PyErr V :=
  match e.lookup n with
  | some v => .ok v
  | none => .error .runtimeError

def InitExpr.eval (o : PyOps V) (e : List (String × V)) : InitExpr → Except PyErr V
  | .arg n => getVar e n
  | .param n f => match getVar e n, getVar e f with
    | .ok v, .ok b => .ok (o.parameter v b)
    | _, _ => .error .runtimeError

def SiteExpr.eval (self e : List (String × V)) : SiteExpr → Except PyErr V
  | .arg n => getVar e n
  | .attr n => getVar self n

/-- One of the checks `if not isinstance(…): raise TypeError`. -/
def checkOne (o : PyOps V) (e : List (String × V)) (c : String × PyType) : Bool :=
  match e.lookup c.1 with
  | some v => o.isinstance c.2 v
  | none => false

/-- `M(...)`: the attributes of the new object. -/
def ModuleClass.init (M : ModuleClass) (o : PyOps V) (a : Actuals V) :
    Except PyErr (List (String × V)) :=
  match bindArgs o.lit M.initSig a with
  | .error e => .error e
  | .ok e =>
    if M.checks.all (checkOne o e) then
      M.attrs.mapM fun x => (x.2.eval o e).map fun v => (x.1, v)
    else .error .typeError

/-- `M(...)(...)`: the values of the parameters with which the propagator function is entered. -/
def ModuleClass.call (M : ModuleClass) (o : PyOps V) (ai af : Actuals V) :
    Except PyErr (List (String × V)) :=
  match M.init o ai, bindArgs o.lit M.fwdSig af with
  | .error e, _ => .error e
  | .ok _, .error e => .error e
  | .ok self, .ok e =>
    match M.callPos.mapM (SiteExpr.eval self e),
      M.callKw.mapM fun x => (x.2.eval self e).map fun v => (x.1, v) with
    | .ok pos, .ok kw => bindArgs o.lit M.funSig ⟨pos, kw⟩
    | _, _ => .error .runtimeError

/-- Class `Scalar` (scalar.py): `__init__` lines 37-74, `forward` lines 76-143; the function
`scalar` has its parameters from line 146. -/
def scalarModule : ModuleClass where
  initSig := [
   ⟨"v", none⟩, ⟨"grid_spacing", none⟩, ⟨"v_requires_grad", some "False"⟩,
   ⟨"storage_mode", some "'device'"⟩, ⟨"storage_path", some "'.'"⟩,
   ⟨"storage_compression", some "False"⟩]
  checks := [
   ("v_requires_grad", .bool), ("v", .tensor)]
  attrs := [
   ("v", .param "v" "v_requires_grad"), ("grid_spacing", .arg "grid_spacing"),
   ("storage_mode", .arg "storage_mode"), ("storage_path", .arg "storage_path"),
   ("storage_compression", .arg "storage_compression")]
  fwdSig := [
   ⟨"dt", none⟩, ⟨"source_amplitudes", some "None"⟩, ⟨"source_locations", some "None"⟩,
   ⟨"receiver_locations", some "None"⟩, ⟨"accuracy", some "4"⟩, ⟨"pml_width", some "20"⟩,
   ⟨"pml_freq", some "None"⟩, ⟨"max_vel", some "None"⟩, ⟨"survey_pad", some "None"⟩,
   ⟨"wavefield_0", some "None"⟩, ⟨"wavefield_m1", some "None"⟩, ⟨"psiz_m1", some "None"⟩,
   ⟨"psiy_m1", some "None"⟩, ⟨"psix_m1", some "None"⟩, ⟨"zetaz_m1", some "None"⟩,
   ⟨"zetay_m1", some "None"⟩, ⟨"zetax_m1", some "None"⟩, ⟨"origin", some "None"⟩,
   ⟨"nt", some "None"⟩, ⟨"model_gradient_sampling_interval", some "1"⟩,
   ⟨"freq_taper_frac", some "0.0"⟩, ⟨"time_pad_frac", some "0.0"⟩, ⟨"time_taper", some "False"⟩,
   ⟨"forward_callback", some "None"⟩, ⟨"backward_callback", some "None"⟩,
   ⟨"callback_frequency", some "1"⟩, ⟨"python_backend", some "False"⟩]
  callPos := [.attr "v", .attr "grid_spacing", .arg "dt"]
  callKw := [
   ("source_amplitudes", .arg "source_amplitudes"),
   ("source_locations", .arg "source_locations"),
   ("receiver_locations", .arg "receiver_locations"), ("accuracy", .arg "accuracy"),
   ("pml_width", .arg "pml_width"), ("pml_freq", .arg "pml_freq"), ("max_vel", .arg "max_vel"),
   ("survey_pad", .arg "survey_pad"), ("wavefield_0", .arg "wavefield_0"),
   ("wavefield_m1", .arg "wavefield_m1"), ("psiz_m1", .arg "psiz_m1"),
   ("psiy_m1", .arg "psiy_m1"), ("psix_m1", .arg "psix_m1"), ("zetaz_m1", .arg "zetaz_m1"),
   ("zetay_m1", .arg "zetay_m1"), ("zetax_m1", .arg "zetax_m1"), ("origin", .arg "origin"),
   ("nt", .arg "nt"),
   ("model_gradient_sampling_interval", .arg "model_gradient_sampling_interval"),
   ("freq_taper_frac", .arg "freq_taper_frac"), ("time_pad_frac", .arg "time_pad_frac"),
   ("time_taper", .arg "time_taper"), ("forward_callback", .arg "forward_callback"),
   ("backward_callback", .arg "backward_callback"),
   ("callback_frequency", .arg "callback_frequency"), ("python_backend", .arg "python_backend"),
   ("storage_mode", .attr "storage_mode"), ("storage_path", .attr "storage_path"),
   ("storage_compression", .attr "storage_compression")]
  funSig := [
   ⟨"v", none⟩, ⟨"grid_spacing", none⟩, ⟨"dt", none⟩, ⟨"source_amplitudes", some "None"⟩,
   ⟨"source_locations", some "None"⟩, ⟨"receiver_locations", some "None"⟩,
   ⟨"accuracy", some "4"⟩, ⟨"pml_width", some "20"⟩, ⟨"pml_freq", some "None"⟩,
   ⟨"max_vel", some "None"⟩, ⟨"survey_pad", some "None"⟩, ⟨"wavefield_0", some "None"⟩,
   ⟨"wavefield_m1", some "None"⟩, ⟨"psiz_m1", some "None"⟩, ⟨"psiy_m1", some "None"⟩,
   ⟨"psix_m1", some "None"⟩, ⟨"zetaz_m1", some "None"⟩, ⟨"zetay_m1", some "None"⟩,
   ⟨"zetax_m1", some "None"⟩, ⟨"origin", some "None"⟩, ⟨"nt", some "None"⟩,
   ⟨"model_gradient_sampling_interval", some "1"⟩, ⟨"freq_taper_frac", some "0.0"⟩,
   ⟨"time_pad_frac", some "0.0"⟩, ⟨"time_taper", some "False"⟩,
   ⟨"forward_callback", some "None"⟩, ⟨"backward_callback", some "None"⟩,
   ⟨"callback_frequency", some "1"⟩, ⟨"python_backend", some "False"⟩,
   ⟨"storage_mode", some "'device'"⟩, ⟨"storage_path", some "'.'"⟩,
   ⟨"storage_compression", some "False"⟩]

/-- Class `ScalarBorn` (scalar_born.py): `__init__` lines 56-104, `forward` lines 106-194; the
function `scalar_born` has its parameters from line 197. -/
def bornModule : ModuleClass where
  initSig := [
   ⟨"v", none⟩, ⟨"scatter", none⟩, ⟨"grid_spacing", none⟩, ⟨"v_requires_grad", some "False"⟩,
   ⟨"scatter_requires_grad", some "False"⟩, ⟨"storage_mode", some "'device'"⟩,
   ⟨"storage_path", some "'.'"⟩, ⟨"storage_compression", some "False"⟩]
  checks := [
   ("v_requires_grad", .bool), ("v", .tensor), ("scatter_requires_grad", .bool),
   ("scatter", .tensor)]
  attrs := [
   ("v", .param "v" "v_requires_grad"), ("scatter", .param "scatter" "scatter_requires_grad"),
   ("grid_spacing", .arg "grid_spacing"), ("storage_mode", .arg "storage_mode"),
   ("storage_path", .arg "storage_path"), ("storage_compression", .arg "storage_compression")]
  fwdSig := [
   ⟨"dt", none⟩, ⟨"source_amplitudes", some "None"⟩, ⟨"source_locations", some "None"⟩,
   ⟨"receiver_locations", some "None"⟩, ⟨"bg_receiver_locations", some "None"⟩,
   ⟨"accuracy", some "4"⟩, ⟨"pml_width", some "20"⟩, ⟨"pml_freq", some "None"⟩,
   ⟨"max_vel", some "None"⟩, ⟨"survey_pad", some "None"⟩, ⟨"wavefield_0", some "None"⟩,
   ⟨"wavefield_m1", some "None"⟩, ⟨"psiz_m1", some "None"⟩, ⟨"psiy_m1", some "None"⟩,
   ⟨"psix_m1", some "None"⟩, ⟨"zetaz_m1", some "None"⟩, ⟨"zetay_m1", some "None"⟩,
   ⟨"zetax_m1", some "None"⟩, ⟨"wavefield_sc_0", some "None"⟩, ⟨"wavefield_sc_m1", some "None"⟩,
   ⟨"psiz_sc_m1", some "None"⟩, ⟨"psiy_sc_m1", some "None"⟩, ⟨"psix_sc_m1", some "None"⟩,
   ⟨"zetaz_sc_m1", some "None"⟩, ⟨"zetay_sc_m1", some "None"⟩, ⟨"zetax_sc_m1", some "None"⟩,
   ⟨"origin", some "None"⟩, ⟨"nt", some "None"⟩, ⟨"model_gradient_sampling_interval", some "1"⟩,
   ⟨"freq_taper_frac", some "0.0"⟩, ⟨"time_pad_frac", some "0.0"⟩, ⟨"time_taper", some "False"⟩,
   ⟨"forward_callback", some "None"⟩, ⟨"backward_callback", some "None"⟩,
   ⟨"callback_frequency", some "1"⟩, ⟨"python_backend", some "False"⟩]
  callPos := [.attr "v", .attr "scatter", .attr "grid_spacing", .arg "dt"]
  callKw := [
   ("source_amplitudes", .arg "source_amplitudes"),
   ("source_locations", .arg "source_locations"),
   ("receiver_locations", .arg "receiver_locations"),
   ("bg_receiver_locations", .arg "bg_receiver_locations"), ("accuracy", .arg "accuracy"),
   ("pml_width", .arg "pml_width"), ("pml_freq", .arg "pml_freq"), ("max_vel", .arg "max_vel"),
   ("survey_pad", .arg "survey_pad"), ("wavefield_0", .arg "wavefield_0"),
   ("wavefield_m1", .arg "wavefield_m1"), ("psiz_m1", .arg "psiz_m1"),
   ("psiy_m1", .arg "psiy_m1"), ("psix_m1", .arg "psix_m1"), ("zetaz_m1", .arg "zetaz_m1"),
   ("zetay_m1", .arg "zetay_m1"), ("zetax_m1", .arg "zetax_m1"),
   ("wavefield_sc_0", .arg "wavefield_sc_0"), ("wavefield_sc_m1", .arg "wavefield_sc_m1"),
   ("psiz_sc_m1", .arg "psiz_sc_m1"), ("psiy_sc_m1", .arg "psiy_sc_m1"),
   ("psix_sc_m1", .arg "psix_sc_m1"), ("zetaz_sc_m1", .arg "zetaz_sc_m1"),
   ("zetay_sc_m1", .arg "zetay_sc_m1"), ("zetax_sc_m1", .arg "zetax_sc_m1"),
   ("origin", .arg "origin"), ("nt", .arg "nt"),
   ("model_gradient_sampling_interval", .arg "model_gradient_sampling_interval"),
   ("freq_taper_frac", .arg "freq_taper_frac"), ("time_pad_frac", .arg "time_pad_frac"),
   ("time_taper", .arg "time_taper"), ("forward_callback", .arg "forward_callback"),
   ("backward_callback", .arg "backward_callback"),
   ("callback_frequency", .arg "callback_frequency"), ("python_backend", .arg "python_backend"),
   ("storage_mode", .attr "storage_mode"), ("storage_path", .attr "storage_path"),
   ("storage_compression", .attr "storage_compression")]
  funSig := [
   ⟨"v", none⟩, ⟨"scatter", none⟩, ⟨"grid_spacing", none⟩, ⟨"dt", none⟩,
   ⟨"source_amplitudes", some "None"⟩, ⟨"source_locations", some "None"⟩,
   ⟨"receiver_locations", some "None"⟩, ⟨"bg_receiver_locations", some "None"⟩,
   ⟨"accuracy", some "4"⟩, ⟨"pml_width", some "20"⟩, ⟨"pml_freq", some "None"⟩,
   ⟨"max_vel", some "None"⟩, ⟨"survey_pad", some "None"⟩, ⟨"wavefield_0", some "None"⟩,
   ⟨"wavefield_m1", some "None"⟩, ⟨"psiz_m1", some "None"⟩, ⟨"psiy_m1", some "None"⟩,
   ⟨"psix_m1", some "None"⟩, ⟨"zetaz_m1", some "None"⟩, ⟨"zetay_m1", some "None"⟩,
   ⟨"zetax_m1", some "None"⟩, ⟨"wavefield_sc_0", some "None"⟩, ⟨"wavefield_sc_m1", some "None"⟩,
   ⟨"psiz_sc_m1", some "None"⟩, ⟨"psiy_sc_m1", some "None"⟩, ⟨"psix_sc_m1", some "None"⟩,
   ⟨"zetaz_sc_m1", some "None"⟩, ⟨"zetay_sc_m1", some "None"⟩, ⟨"zetax_sc_m1", some "None"⟩,
   ⟨"origin", some "None"⟩, ⟨"nt", some "None"⟩, ⟨"model_gradient_sampling_interval", some "1"⟩,
   ⟨"freq_taper_frac", some "0.0"⟩, ⟨"time_pad_frac", some "0.0"⟩, ⟨"time_taper", some "False"⟩,
   ⟨"forward_callback", some "None"⟩, ⟨"backward_callback", some "None"⟩,
   ⟨"callback_frequency", some "1"⟩, ⟨"python_backend", some "False"⟩,
   ⟨"storage_mode", some "'device'"⟩, ⟨"storage_path", some "'.'"⟩,
   ⟨"storage_compression", some "False"⟩]

/-- Class `Acoustic` (acoustic.py): `__init__` lines 98-148, `forward` lines 150-240; the function
`acoustic` has its parameters from line 243. -/
def acousticModule : ModuleClass where
  initSig := [
   ⟨"v", none⟩, ⟨"rho", none⟩, ⟨"grid_spacing", none⟩, ⟨"v_requires_grad", some "False"⟩,
   ⟨"rho_requires_grad", some "False"⟩, ⟨"storage_mode", some "'device'"⟩,
   ⟨"storage_path", some "'.'"⟩, ⟨"storage_compression", some "False"⟩]
  checks := [
   ("v_requires_grad", .bool), ("v", .tensor), ("rho_requires_grad", .bool), ("rho", .tensor)]
  attrs := [
   ("v", .param "v" "v_requires_grad"), ("rho", .param "rho" "rho_requires_grad"),
   ("grid_spacing", .arg "grid_spacing"), ("storage_mode", .arg "storage_mode"),
   ("storage_path", .arg "storage_path"), ("storage_compression", .arg "storage_compression")]
  fwdSig := [
   ⟨"dt", none⟩, ⟨"source_amplitudes_p", some "None"⟩, ⟨"source_locations_p", some "None"⟩,
   ⟨"source_amplitudes_z", some "None"⟩, ⟨"source_locations_z", some "None"⟩,
   ⟨"source_amplitudes_y", some "None"⟩, ⟨"source_locations_y", some "None"⟩,
   ⟨"source_amplitudes_x", some "None"⟩, ⟨"source_locations_x", some "None"⟩,
   ⟨"receiver_locations_p", some "None"⟩, ⟨"receiver_locations_z", some "None"⟩,
   ⟨"receiver_locations_y", some "None"⟩, ⟨"receiver_locations_x", some "None"⟩,
   ⟨"accuracy", some "4"⟩, ⟨"pml_width", some "20"⟩, ⟨"pml_freq", some "None"⟩,
   ⟨"max_vel", some "None"⟩, ⟨"survey_pad", some "None"⟩, ⟨"pressure_0", some "None"⟩,
   ⟨"vz_0", some "None"⟩, ⟨"vy_0", some "None"⟩, ⟨"vx_0", some "None"⟩,
   ⟨"phi_z_0", some "None"⟩, ⟨"phi_y_0", some "None"⟩, ⟨"phi_x_0", some "None"⟩,
   ⟨"psi_z_0", some "None"⟩, ⟨"psi_y_0", some "None"⟩, ⟨"psi_x_0", some "None"⟩,
   ⟨"origin", some "None"⟩, ⟨"nt", some "None"⟩, ⟨"model_gradient_sampling_interval", some "1"⟩,
   ⟨"freq_taper_frac", some "0.0"⟩, ⟨"time_pad_frac", some "0.0"⟩, ⟨"time_taper", some "False"⟩,
   ⟨"forward_callback", some "None"⟩, ⟨"backward_callback", some "None"⟩,
   ⟨"callback_frequency", some "1"⟩, ⟨"python_backend", some "False"⟩]
  callPos := [.attr "v", .attr "rho", .attr "grid_spacing", .arg "dt"]
  callKw := [
   ("source_amplitudes_p", .arg "source_amplitudes_p"),
   ("source_locations_p", .arg "source_locations_p"),
   ("source_amplitudes_z", .arg "source_amplitudes_z"),
   ("source_locations_z", .arg "source_locations_z"),
   ("source_amplitudes_y", .arg "source_amplitudes_y"),
   ("source_locations_y", .arg "source_locations_y"),
   ("source_amplitudes_x", .arg "source_amplitudes_x"),
   ("source_locations_x", .arg "source_locations_x"),
   ("receiver_locations_p", .arg "receiver_locations_p"),
   ("receiver_locations_z", .arg "receiver_locations_z"),
   ("receiver_locations_y", .arg "receiver_locations_y"),
   ("receiver_locations_x", .arg "receiver_locations_x"), ("accuracy", .arg "accuracy"),
   ("pml_width", .arg "pml_width"), ("pml_freq", .arg "pml_freq"), ("max_vel", .arg "max_vel"),
   ("survey_pad", .arg "survey_pad"), ("pressure_0", .arg "pressure_0"), ("vz_0", .arg "vz_0"),
   ("vy_0", .arg "vy_0"), ("vx_0", .arg "vx_0"), ("phi_z_0", .arg "phi_z_0"),
   ("phi_y_0", .arg "phi_y_0"), ("phi_x_0", .arg "phi_x_0"), ("psi_z_0", .arg "psi_z_0"),
   ("psi_y_0", .arg "psi_y_0"), ("psi_x_0", .arg "psi_x_0"), ("origin", .arg "origin"),
   ("nt", .arg "nt"),
   ("model_gradient_sampling_interval", .arg "model_gradient_sampling_interval"),
   ("freq_taper_frac", .arg "freq_taper_frac"), ("time_pad_frac", .arg "time_pad_frac"),
   ("time_taper", .arg "time_taper"), ("forward_callback", .arg "forward_callback"),
   ("backward_callback", .arg "backward_callback"),
   ("callback_frequency", .arg "callback_frequency"), ("python_backend", .arg "python_backend"),
   ("storage_mode", .attr "storage_mode"), ("storage_path", .attr "storage_path"),
   ("storage_compression", .attr "storage_compression")]
  funSig := [
   ⟨"v", none⟩, ⟨"rho", none⟩, ⟨"grid_spacing", none⟩, ⟨"dt", none⟩,
   ⟨"source_amplitudes_p", some "None"⟩, ⟨"source_locations_p", some "None"⟩,
   ⟨"source_amplitudes_z", some "None"⟩, ⟨"source_locations_z", some "None"⟩,
   ⟨"source_amplitudes_y", some "None"⟩, ⟨"source_locations_y", some "None"⟩,
   ⟨"source_amplitudes_x", some "None"⟩, ⟨"source_locations_x", some "None"⟩,
   ⟨"receiver_locations_p", some "None"⟩, ⟨"receiver_locations_z", some "None"⟩,
   ⟨"receiver_locations_y", some "None"⟩, ⟨"receiver_locations_x", some "None"⟩,
   ⟨"accuracy", some "4"⟩, ⟨"pml_width", some "20"⟩, ⟨"pml_freq", some "None"⟩,
   ⟨"max_vel", some "None"⟩, ⟨"survey_pad", some "None"⟩, ⟨"pressure_0", some "None"⟩,
   ⟨"vz_0", some "None"⟩, ⟨"vy_0", some "None"⟩, ⟨"vx_0", some "None"⟩,
   ⟨"phi_z_0", some "None"⟩, ⟨"phi_y_0", some "None"⟩, ⟨"phi_x_0", some "None"⟩,
   ⟨"psi_z_0", some "None"⟩, ⟨"psi_y_0", some "None"⟩, ⟨"psi_x_0", some "None"⟩,
   ⟨"origin", some "None"⟩, ⟨"nt", some "None"⟩, ⟨"model_gradient_sampling_interval", some "1"⟩,
   ⟨"freq_taper_frac", some "0.0"⟩, ⟨"time_pad_frac", some "0.0"⟩, ⟨"time_taper", some "False"⟩,
   ⟨"forward_callback", some "None"⟩, ⟨"backward_callback", some "None"⟩,
   ⟨"callback_frequency", some "1"⟩, ⟨"python_backend", some "False"⟩,
   ⟨"storage_mode", some "'device'"⟩, ⟨"storage_path", some "'.'"⟩,
   ⟨"storage_compression", some "False"⟩]

/-- Class `Elastic` (elastic.py): `__init__` lines 156-200, `forward` lines 202-329; the function
`elastic` has its parameters from line 332. -/
def elasticModule : ModuleClass where
  initSig := [
   ⟨"lamb", none⟩, ⟨"mu", none⟩, ⟨"buoyancy", none⟩, ⟨"grid_spacing", none⟩,
   ⟨"lamb_requires_grad", some "False"⟩, ⟨"mu_requires_grad", some "False"⟩,
   ⟨"buoyancy_requires_grad", some "False"⟩, ⟨"storage_mode", some "'device'"⟩,
   ⟨"storage_path", some "'.'"⟩, ⟨"storage_compression", some "False"⟩]
  checks := [
   ("lamb_requires_grad", .bool), ("lamb", .tensor), ("mu_requires_grad", .bool),
   ("mu", .tensor), ("buoyancy_requires_grad", .bool), ("buoyancy", .tensor)]
  attrs := [
   ("lamb", .param "lamb" "lamb_requires_grad"), ("mu", .param "mu" "mu_requires_grad"),
   ("buoyancy", .param "buoyancy" "buoyancy_requires_grad"),
   ("grid_spacing", .arg "grid_spacing"), ("storage_mode", .arg "storage_mode"),
   ("storage_path", .arg "storage_path"), ("storage_compression", .arg "storage_compression")]
  fwdSig := [
   ⟨"dt", none⟩, ⟨"source_amplitudes_z", some "None"⟩, ⟨"source_amplitudes_y", some "None"⟩,
   ⟨"source_amplitudes_x", some "None"⟩, ⟨"source_amplitudes_p", some "None"⟩,
   ⟨"source_locations_z", some "None"⟩, ⟨"source_locations_y", some "None"⟩,
   ⟨"source_locations_x", some "None"⟩, ⟨"source_locations_p", some "None"⟩,
   ⟨"receiver_locations_z", some "None"⟩, ⟨"receiver_locations_y", some "None"⟩,
   ⟨"receiver_locations_x", some "None"⟩, ⟨"receiver_locations_p", some "None"⟩,
   ⟨"accuracy", some "4"⟩, ⟨"pml_width", some "20"⟩, ⟨"pml_freq", some "None"⟩,
   ⟨"max_vel", some "None"⟩, ⟨"survey_pad", some "None"⟩, ⟨"vz_0", some "None"⟩,
   ⟨"vy_0", some "None"⟩, ⟨"vx_0", some "None"⟩, ⟨"sigmazz_0", some "None"⟩,
   ⟨"sigmayz_0", some "None"⟩, ⟨"sigmaxz_0", some "None"⟩, ⟨"sigmayy_0", some "None"⟩,
   ⟨"sigmaxy_0", some "None"⟩, ⟨"sigmaxx_0", some "None"⟩, ⟨"m_vzz_0", some "None"⟩,
   ⟨"m_vzy_0", some "None"⟩, ⟨"m_vzx_0", some "None"⟩, ⟨"m_vyz_0", some "None"⟩,
   ⟨"m_vxz_0", some "None"⟩, ⟨"m_vyy_0", some "None"⟩, ⟨"m_vyx_0", some "None"⟩,
   ⟨"m_vxy_0", some "None"⟩, ⟨"m_vxx_0", some "None"⟩, ⟨"m_sigmazzz_0", some "None"⟩,
   ⟨"m_sigmayzy_0", some "None"⟩, ⟨"m_sigmaxzx_0", some "None"⟩, ⟨"m_sigmayzz_0", some "None"⟩,
   ⟨"m_sigmaxzz_0", some "None"⟩, ⟨"m_sigmayyy_0", some "None"⟩, ⟨"m_sigmaxyy_0", some "None"⟩,
   ⟨"m_sigmaxyx_0", some "None"⟩, ⟨"m_sigmaxxx_0", some "None"⟩, ⟨"origin", some "None"⟩,
   ⟨"nt", some "None"⟩, ⟨"model_gradient_sampling_interval", some "1"⟩,
   ⟨"freq_taper_frac", some "0.0"⟩, ⟨"time_pad_frac", some "0.0"⟩, ⟨"time_taper", some "False"⟩,
   ⟨"forward_callback", some "None"⟩, ⟨"backward_callback", some "None"⟩,
   ⟨"callback_frequency", some "1"⟩, ⟨"python_backend", some "False"⟩]
  callPos := [.attr "lamb", .attr "mu", .attr "buoyancy", .attr "grid_spacing", .arg "dt"]
  callKw := [
   ("source_amplitudes_z", .arg "source_amplitudes_z"),
   ("source_amplitudes_y", .arg "source_amplitudes_y"),
   ("source_amplitudes_x", .arg "source_amplitudes_x"),
   ("source_amplitudes_p", .arg "source_amplitudes_p"),
   ("source_locations_z", .arg "source_locations_z"),
   ("source_locations_y", .arg "source_locations_y"),
   ("source_locations_x", .arg "source_locations_x"),
   ("source_locations_p", .arg "source_locations_p"),
   ("receiver_locations_z", .arg "receiver_locations_z"),
   ("receiver_locations_y", .arg "receiver_locations_y"),
   ("receiver_locations_x", .arg "receiver_locations_x"),
   ("receiver_locations_p", .arg "receiver_locations_p"), ("accuracy", .arg "accuracy"),
   ("pml_width", .arg "pml_width"), ("pml_freq", .arg "pml_freq"), ("max_vel", .arg "max_vel"),
   ("survey_pad", .arg "survey_pad"), ("vz_0", .arg "vz_0"), ("vy_0", .arg "vy_0"),
   ("vx_0", .arg "vx_0"), ("sigmazz_0", .arg "sigmazz_0"), ("sigmayz_0", .arg "sigmayz_0"),
   ("sigmaxz_0", .arg "sigmaxz_0"), ("sigmayy_0", .arg "sigmayy_0"),
   ("sigmaxy_0", .arg "sigmaxy_0"), ("sigmaxx_0", .arg "sigmaxx_0"),
   ("m_vzz_0", .arg "m_vzz_0"), ("m_vzy_0", .arg "m_vzy_0"), ("m_vzx_0", .arg "m_vzx_0"),
   ("m_vyz_0", .arg "m_vyz_0"), ("m_vxz_0", .arg "m_vxz_0"), ("m_vyy_0", .arg "m_vyy_0"),
   ("m_vyx_0", .arg "m_vyx_0"), ("m_vxy_0", .arg "m_vxy_0"), ("m_vxx_0", .arg "m_vxx_0"),
   ("m_sigmazzz_0", .arg "m_sigmazzz_0"), ("m_sigmayzy_0", .arg "m_sigmayzy_0"),
   ("m_sigmaxzx_0", .arg "m_sigmaxzx_0"), ("m_sigmayzz_0", .arg "m_sigmayzz_0"),
   ("m_sigmaxzz_0", .arg "m_sigmaxzz_0"), ("m_sigmayyy_0", .arg "m_sigmayyy_0"),
   ("m_sigmaxyy_0", .arg "m_sigmaxyy_0"), ("m_sigmaxyx_0", .arg "m_sigmaxyx_0"),
   ("m_sigmaxxx_0", .arg "m_sigmaxxx_0"), ("origin", .arg "origin"), ("nt", .arg "nt"),
   ("model_gradient_sampling_interval", .arg "model_gradient_sampling_interval"),
   ("freq_taper_frac", .arg "freq_taper_frac"), ("time_pad_frac", .arg "time_pad_frac"),
   ("time_taper", .arg "time_taper"), ("forward_callback", .arg "forward_callback"),
   ("backward_callback", .arg "backward_callback"),
   ("callback_frequency", .arg "callback_frequency"), ("python_backend", .arg "python_backend"),
   ("storage_mode", .attr "storage_mode"), ("storage_path", .attr "storage_path"),
   ("storage_compression", .attr "storage_compression")]
  funSig := [
   ⟨"lamb", none⟩, ⟨"mu", none⟩, ⟨"buoyancy", none⟩, ⟨"grid_spacing", none⟩, ⟨"dt", none⟩,
   ⟨"source_amplitudes_z", some "None"⟩, ⟨"source_amplitudes_y", some "None"⟩,
   ⟨"source_amplitudes_x", some "None"⟩, ⟨"source_amplitudes_p", some "None"⟩,
   ⟨"source_locations_z", some "None"⟩, ⟨"source_locations_y", some "None"⟩,
   ⟨"source_locations_x", some "None"⟩, ⟨"source_locations_p", some "None"⟩,
   ⟨"receiver_locations_z", some "None"⟩, ⟨"receiver_locations_y", some "None"⟩,
   ⟨"receiver_locations_x", some "None"⟩, ⟨"receiver_locations_p", some "None"⟩,
   ⟨"accuracy", some "4"⟩, ⟨"pml_width", some "20"⟩, ⟨"pml_freq", some "None"⟩,
   ⟨"max_vel", some "None"⟩, ⟨"survey_pad", some "None"⟩, ⟨"vz_0", some "None"⟩,
   ⟨"vy_0", some "None"⟩, ⟨"vx_0", some "None"⟩, ⟨"sigmazz_0", some "None"⟩,
   ⟨"sigmayz_0", some "None"⟩, ⟨"sigmaxz_0", some "None"⟩, ⟨"sigmayy_0", some "None"⟩,
   ⟨"sigmaxy_0", some "None"⟩, ⟨"sigmaxx_0", some "None"⟩, ⟨"m_vzz_0", some "None"⟩,
   ⟨"m_vzy_0", some "None"⟩, ⟨"m_vzx_0", some "None"⟩, ⟨"m_vyz_0", some "None"⟩,
   ⟨"m_vxz_0", some "None"⟩, ⟨"m_vyy_0", some "None"⟩, ⟨"m_vyx_0", some "None"⟩,
   ⟨"m_vxy_0", some "None"⟩, ⟨"m_vxx_0", some "None"⟩, ⟨"m_sigmazzz_0", some "None"⟩,
   ⟨"m_sigmayzy_0", some "None"⟩, ⟨"m_sigmaxzx_0", some "None"⟩, ⟨"m_sigmayzz_0", some "None"⟩,
   ⟨"m_sigmaxzz_0", some "None"⟩, ⟨"m_sigmayyy_0", some "None"⟩, ⟨"m_sigmaxyy_0", some "None"⟩,
   ⟨"m_sigmaxyx_0", some "None"⟩, ⟨"m_sigmaxxx_0", some "None"⟩, ⟨"origin", some "None"⟩,
   ⟨"nt", some "None"⟩, ⟨"model_gradient_sampling_interval", some "1"⟩,
   ⟨"freq_taper_frac", some "0.0"⟩, ⟨"time_pad_frac", some "0.0"⟩, ⟨"time_taper", some "False"⟩,
   ⟨"forward_callback", some "None"⟩, ⟨"backward_callback", some "None"⟩,
   ⟨"callback_frequency", some "1"⟩, ⟨"python_backend", some "False"⟩,
   ⟨"storage_mode", some "'device'"⟩, ⟨"storage_path", some "'.'"⟩,
   ⟨"storage_compression", some "False"⟩]

end Dw.Interface
