import Mathlib.Data.Nat.Notation
import Verif.Core.Py

/-!
# What callbacks of `scalar`, `scalar_born` and `acoustic` are shown

The dictionaries of wavefields, models and gradients handed to `CallbackState`, made from the flat list of wavefields
that the propagation function gets (or from the list of their gradients).  Tensors are opaque: padding, clearing and
propagation replace a tensor by another one for the same field.  Those of `elastic` are in `Interface/Python.lean` and
`Interface/PyNames.lean`.
-/

namespace Dw.Interface

variable {α : Type}

/-- `l[i]` for `0 ≤ i`. -/
def item (l : List α) (i : ℕ) : Except PyErr α :=
  match l[i]? with
  | some a => .ok a
  | none => .error .indexError

/-- `dim_names[-ndim + i]` with `dim_names = ["z", "y", "x"]`. -/
def dimName (n i : ℕ) : Except PyErr String := item ["z", "y", "x"] (3 - n + i)

/-- `d[name]`: the last value set. -/
def dictGet (d : List (String × α)) (name : String) : Option α := d.reverse.lookup name

/-- `wfc, wfp, *rest = l; psi = rest[:ndim]; zeta = rest[ndim:]` (`scalar.py` 756-761, 1133-1137,
`scalar_born.py` 763-771, 1010-1017, 1038-1042). -/
def unpackRegular (n : ℕ) : List α → Except PyErr (α × α × List α × List α)
  | wfc :: wfp :: rest => .ok (wfc, wfp, rest.take n, rest.drop n)
  | _ => .error .valueError

/-- The loops over dimensions that add entries `psi{name}{suffix}` and `zeta{name}{suffix}` (`scalar.py` 859-861,
1308-1314). -/
def pmlEntries (n : ℕ) (suffix : String) (psi zeta : List α) : Except PyErr (List (String × α)) := do
  let l ← (List.range n).mapM fun i => do
    let d ← dimName n i
    let a ← item psi i
    let b ← item zeta i
    return [("psi" ++ d ++ suffix, a), ("zeta" ++ d ++ suffix, b)]
  return l.flatten

/-- `scalar.py` 855-861 (forward, the wavefields) and 1304-1314 (backward, their gradients). -/
def scalarShown (n : ℕ) (wavefields : List α) : Except PyErr (List (String × α)) := do
  let (wfc, wfp, psi, zeta) ← unpackRegular n wavefields
  let l ← pmlEntries n "_m1" psi zeta
  return [("wavefield_0", wfc), ("wavefield_m1", wfp)] ++ l

/-- `scalar.py` 2047-2055 (Python backend). -/
def scalarShownPy (n : ℕ) (wavefields : List α) : Except PyErr (List (String × α)) := do
  let a ← item wavefields 0
  let b ← item wavefields 1
  let l ← (List.range n).mapM fun i => do
    let d ← dimName n i
    let a ← item wavefields (2 + i)
    let b ← item wavefields (2 + n + i)
    return [("psi" ++ d ++ "_m1", a), ("zeta" ++ d ++ "_m1", b)]
  return [("wavefield_0", a), ("wavefield_m1", b)] ++ l.flatten

/-- `scalar_born.py` 829-845 (forward), 1268-1287 (backward): the loop adds four entries for each dimension. -/
def bornShown (n : ℕ) (wavefields : List α) : Except PyErr (List (String × α)) := do
  let (wfc, wfp, psi, zeta) ← unpackRegular n (wavefields.take (2 + 2 * n))
  let (wfcsc, wfpsc, psisc, zetasc) ← unpackRegular n (wavefields.drop (2 + 2 * n))
  let l ← (List.range n).mapM fun i => do
    let d ← dimName n i
    let a ← item psi i
    let b ← item zeta i
    let a' ← item psisc i
    let b' ← item zetasc i
    return [("psi" ++ d ++ "_m1", a), ("zeta" ++ d ++ "_m1", b), ("psi" ++ d ++ "_sc_m1", a'),
      ("zeta" ++ d ++ "_sc_m1", b')]
  return [("wavefield_0", wfc), ("wavefield_m1", wfp), ("wavefield_sc_0", wfcsc), ("wavefield_sc_m1", wfpsc)] ++
    l.flatten

/-- `scalar_born.py` 1358-1372: the backward pass without gradients of the background, from the gradients of the
scattered wavefields. -/
def bornShownSc (n : ℕ) (wavefieldsSc : List α) : Except PyErr (List (String × α)) := do
  let (wfcsc, wfpsc, psisc, zetasc) ← unpackRegular n wavefieldsSc
  let l ← pmlEntries n "_sc_m1" psisc zetasc
  return [("wavefield_sc_0", wfcsc), ("wavefield_sc_m1", wfpsc)] ++ l

/-- `scalar_born.py` 1651-1668 (Python backend). -/
def bornShownPy (n : ℕ) (wavefields : List α) : Except PyErr (List (String × α)) := do
  let a ← item wavefields 0
  let b ← item wavefields 1
  let a' ← item wavefields (2 + 2 * n)
  let b' ← item wavefields (3 + 2 * n)
  let l ← (List.range n).mapM fun i => do
    let d ← dimName n i
    let a ← item wavefields (2 + i)
    let b ← item wavefields (2 + n + i)
    let a' ← item wavefields (4 + 2 * n + i)
    let b' ← item wavefields (4 + 3 * n + i)
    return [("psi" ++ d ++ "_m1", a), ("zeta" ++ d ++ "_m1", b), ("psi" ++ d ++ "_sc_m1", a'),
      ("zeta" ++ d ++ "_sc_m1", b')]
  return [("wavefield_0", a), ("wavefield_m1", b), ("wavefield_sc_0", a'), ("wavefield_sc_m1", b')] ++ l.flatten

/-- `wf_names` (`acoustic.py` 914-935, 1149-1170, 1446-1467). -/
def acousticWfNames (n : ℕ) : List String :=
  ["pressure_0"] ++
    (if n = 3 then ["vz_0", "vy_0", "vx_0"] else if n = 2 then ["vy_0", "vx_0"]
      else if n = 1 then ["vx_0"] else []) ++
    (if n = 3 then ["phi_z_0", "phi_y_0", "phi_x_0"] else if n = 2 then ["phi_y_0", "phi_x_0"]
      else if n = 1 then ["phi_x_0"] else []) ++
    (if n = 3 then ["psi_z_0", "psi_y_0", "psi_x_0"] else if n = 2 then ["psi_y_0", "psi_x_0"]
      else if n = 1 then ["psi_x_0"] else [])

/-- `model_names` (`acoustic.py` 938-944, 1173-1179, 1470-1476). -/
def acousticModelNames (n : ℕ) : List String :=
  ["K"] ++ (if n = 3 then ["Bz", "By", "Bx"] else if n = 2 then ["By", "Bx"] else if n = 1 then ["Bx"] else [])

/-- `dict(zip(wf_names, wavefields))` (`acoustic.py` 951, 1234). -/
def acousticShown (n : ℕ) (wavefields : List α) : List (String × α) := (acousticWfNames n).zip wavefields

/-- `acoustic.py` 1398-1401 and 1482-1483 (Python backend): the list is split and put together again. -/
def acousticShownPy (n : ℕ) (wavefields : List α) : Except PyErr (List (String × α)) := do
  let p ← item wavefields 0
  let velocities := (wavefields.take (1 + n)).drop 1
  let phi := (wavefields.take (1 + 2 * n)).drop (1 + n)
  let psi := wavefields.drop (1 + 2 * n)
  return (acousticWfNames n).zip ([p] ++ velocities ++ phi ++ psi)

/-- `dict(zip(model_names, models))`, also for the gradients of the models. -/
def acousticShownModels (n : ℕ) (models : List α) : List (String × α) := (acousticModelNames n).zip models

/-- `{"v": v, "scatter": scatter}` (`scalar_born.py` 852, 1289-1290, 1375-1376, 1674): models and gradients. -/
def bornShownModels (v scatter : α) : List (String × α) := [("v", v), ("scatter", scatter)]

end Dw.Interface
