import Verif.Core.Driver
import Verif.Scalar.Python

/-!
# Time loops of the pure Python propagators

The Python propagators loop over outer steps, calling the callback when the step is a multiple of the
frequency, and over `step_ratio` inner steps.
-/

namespace Dw.Driver

variable {β ε : Type*}

/-- Body of the loop over outer steps (`acoustic.py` 1465-1543, `scalar_born.py` 1669-1712). -/
def pyOuter (inner : ℕ → β → β) (ratio : ℕ) (view : ℕ → β → ε) (cb : Option ℕ) (m : β × List ε)
    (step : ℕ) : β × List ε :=
  let evs := match cb with
    | some cf => if step % cf = 0 then m.2 ++ [view step m.1] else m.2
    | none => m.2
  ((List.range ratio).foldl (fun m i => inner (step * ratio + i) m) m.1, evs)

/-- `for step in range(nt // step_ratio)`. -/
def pyDrive (inner : ℕ → β → β) (ratio : ℕ) (view : ℕ → β → ε) (cb : Option ℕ) (N : ℕ) (m : β) :
    β × List ε :=
  (List.range N).foldl (pyOuter inner ratio view cb) (m, [])

variable {inner : ℕ → β → β} {ratio : ℕ} {view : ℕ → β → ε}

theorem pyInner_eq (m : β) (T n : ℕ) :
    (List.range n).foldl (fun m i => inner (T + i) m) (runF id inner m T) = runF id inner m (T + n) := by
  induction n with
  | zero => rfl
  | succ n ih => rw [List.range_succ, List.foldl_append, ih]; rfl

/-- The loops make `N * ratio` inner steps; the callback sees the state at the multiples of the
frequency. -/
theorem pyDrive_eq (cb : Option ℕ) (hcb : ∀ cf, cb = some cf → 0 < cf) (N : ℕ) (m : β) :
    pyDrive inner ratio view cb N m = (runF id inner m (N * ratio), match cb with
      | none => []
      | some cf => (List.range ((N + cf - 1) / cf)).map fun i => view (i * cf)
          (runF id inner m (i * cf * ratio))) := by
  have key : pyDrive inner ratio view cb N m = (runF id inner m (N * ratio), match cb with
      | none => []
      | some cf => ((List.range N).filter fun i => i % cf = 0).map fun i => view i
          (runF id inner m (i * ratio))) := by
    induction N with
    | zero => cases cb <;> simp [pyDrive, runF]
    | succ N ih =>
        rw [pyDrive, List.range_succ, List.foldl_append]
        change pyOuter inner ratio view cb (pyDrive inner ratio view cb N m) N = _
        rw [ih]
        simp only [pyOuter]
        rw [pyInner_eq, Nat.succ_mul]
        cases cb with
        | none => rfl
        | some cf =>
            by_cases hN : N % cf = 0 <;> simp [hN, List.filter_append]
  rw [key]
  cases cb with
  | none => rfl
  | some cf =>
      simp only
      rw [Dw.Scalar.filter_range_eq _ _ (hcb cf rfl), List.map_map]
      rfl

end Dw.Driver
