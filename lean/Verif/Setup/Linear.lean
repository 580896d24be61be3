import Verif.Setup.AutogradShot

/-!
# Linear combinations and parts of the inputs of a call

What superposition and restart of `scalar_born`, `acoustic` and `elastic` share.
-/

namespace Dw.Setup

open Dw.Scalar (upS downS upAmps upS_comb downS_comb downS_len)
open Dw.Resample (Sig)

variable {d : ℕ} {A : SetupArgs d} {P : Plan d}

/-- Other values for wavefields that are given. -/
def wfWith (w : Option (WfT d)) (δ : ℕ → Fld d ℝ) : Option (WfT d) := w.map fun w => {w with val := δ}

theorem ampWith_size (a : Option AmpT) (δ : ℕ → ℕ → ℕ → ℝ) :
    (ampWith a δ).map AmpT.size = a.map AmpT.size := by
  cases a <;> rfl

theorem wfWith_size (w : Option (WfT d)) (δ : ℕ → Fld d ℝ) : (wfWith w δ).map WfT.size = w.map WfT.size := by
  cases w <;> rfl

theorem upAmps_comb (h : A.Good P) (tt : Bool) (a : Option AmpT) (α β : ℝ) (δ δ' : ℕ → ℕ → ℕ → ℝ) (s t i : ℕ) :
    upAmps P tt (ampWith a fun s i t => α * δ s i t + β * δ' s i t) s t i =
      α * upAmps P tt (ampWith a δ) s t i + β * upAmps P tt (ampWith a δ') s t i := by
  cases a with
  | none => simp [upAmps, ampWith]
  | some a =>
      have := upS_comb h tt α β ⟨a.nt, δ s i⟩ ⟨a.nt, δ' s i⟩ rfl
      exact congrArg (fun x : Sig ℝ => x.val t) this

/-- Zero for wavefields that are not given. -/
theorem wfWith_comb (w : Option (WfT d)) (α β : ℝ) (δ δ' : ℕ → Fld d ℝ) (s : ℕ) :
    (((wfWith w fun s c => α * δ s c + β * δ' s c).map fun x => x.val s).getD fun _ => 0) = fun c =>
      α * (((wfWith w δ).map fun x => x.val s).getD fun _ => 0) c +
        β * (((wfWith w δ').map fun x => x.val s).getD fun _ => 0) c := by
  cases w with
  | none => simp [wfWith]
  | some w => rfl

/-- The traces of a linear combination. -/
theorem traces_comb (h : A.Good P) (tt : Bool) (s : ℕ) {m : ℕ} (α β : ℝ) (x y z : ℕ → Fin m → ℝ)
    (hz : ∀ t i, z t i = α * x t i + β * y t i) (i : ℕ) :
    (shotIn A P tt s).traces z i =
      ((shotIn A P tt s).traces x i).comb α β ((shotIn A P tt s).traces y i) ∧
    ((shotIn A P tt s).traces y i).len = ((shotIn A P tt s).traces x i).len := by
  unfold ShotIn.traces
  split_ifs with hi
  · simp only [hz]
    exact ⟨downS_comb h tt α β (fun t => x t ⟨i, hi⟩) fun t => y t ⟨i, hi⟩,
      downS_len h tt (fun t => x t ⟨i, hi⟩) fun t => y t ⟨i, hi⟩⟩
  · simp [Sig.comb]

theorem traces_comb_if (h : A.Good P) (tt : Bool) (s : ℕ) {m T : ℕ} (α β : ℝ) (x y z : ℕ → Fin m → ℝ)
    (hz : ∀ t i, z t i = α * x t i + β * y t i) (i : ℕ) :
    (shotIn A P tt s).traces (fun t => if t < T then z t else fun _ => 0) i =
      ((shotIn A P tt s).traces (fun t => if t < T then x t else fun _ => 0) i).comb α β
        ((shotIn A P tt s).traces (fun t => if t < T then y t else fun _ => 0) i) ∧
    ((shotIn A P tt s).traces (fun t => if t < T then y t else fun _ => 0) i).len =
      ((shotIn A P tt s).traces (fun t => if t < T then x t else fun _ => 0) i).len := by
  refine traces_comb h tt s α β _ _ _ (fun t i => ?_) i
  split_ifs
  · exact hz t i
  · simp

end Dw.Setup
