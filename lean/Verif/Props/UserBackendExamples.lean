import Verif.Props.UserBackendScalar
import Verif.Props.UserBackendAcoustic
import Verif.Props.UserBackendElastic
import Verif.Props.UserBackendBorn
import Verif.Props.UserGradAcoustic
import Verif.Props.UserGradBorn
import Verif.Props.UserGradElastic

/-!
# Instances of C107

Calls with two shots, on the CPU with one thread per shot in lockstep, on a CUDA device with reversed threads, and
with the Python backend.
-/

namespace Dw.Scalar

open Setup Resample

theorem exRev_ok (ns nr : ℕ) (P : Plan 2) (cb : Option ℕ) (nt : ℕ) :
    (Device.cuda fun _ => Gpu.revSched 2 ns P.nb P.acc.pad (P.n false)).Admissible (batch ns nr P) cb nt :=
  fun _ => ⟨List.reverse_perm _, Gpu.readsFirst_valid _ _⟩

example : ∃ l r, (exU .none).scalarOn (fun ns S => .cuda fun _ =>
      Gpu.revSched 2 ns S (exP ![(0, 7), (0, 9)]).acc.pad ((exP ![(0, 7), (0, 9)]).n false)) = .ok (some l) ∧ l[1]? = some r ∧
    (exU .none).scalar 1 = .ok (some r) ∧ ∃ p, (exU .none).scalarPy 1 = .ok (some p) ∧ p.traces = r.traces := by
  obtain ⟨l, h1, -, h2⟩ := C107_scalar_devices (exU .none) (exP ![(0, 7), (0, 9)]) 1 (plan_ok.2 exU_whole)
    (by norm_num [exP]) (.inl (by norm_num [exP])) (fun s hs l hl => by cases hl; exact exLoc_whole s hs)
    (fun s hs l hl => by cases hl; exact exLoc_whole s hs) rfl (by norm_num [exP]) (.inr (.inl (by norm_num [exP])))
    (fun ns S => .cuda fun _ => Gpu.revSched 2 ns S (exP ![(0, 7), (0, 9)]).acc.pad ((exP ![(0, 7), (0, 9)]).n false))
    (exRev_ok _ _ _ _ _)
  obtain ⟨r, h3, h4⟩ := h2 1 (by norm_num [exP])
  obtain ⟨r', p, h5, h6, -, h7, -⟩ := C107_scalar_python (exU .none) (exP ![(0, 7), (0, 9)]) 1 1 (plan_ok.2 exU_whole)
    (by norm_num [exP]) (.inl (by norm_num [exP])) (fun l hl => by cases hl; exact exLoc_whole 1 (by norm_num))
    (fun l hl => by cases hl; exact exLoc_whole 1 (by norm_num)) rfl (by norm_num [exP]) (by norm_num [exP])
  cases h4.symm.trans h5
  exact ⟨l, r, h1, h3, h4, p, h6, h7⟩

/-- One thread per shot; the threads take turns. -/
noncomputable def exLock (ns S : ℕ) : Device 2 ns S :=
  .cpu S fun step => Gpu.lockSched S (fwdSteps (step * 3) (min (5 - step) 5 * 3))

theorem exLock_ok (ns nr : ℕ) :
    (exLock ns (exP ![(0, 7), (0, 9)]).nb).Admissible (batch ns nr (exP ![(0, 7), (0, 9)])) none 15 := by
  have hr : (batch ns nr (exP ![(0, 7), (0, 9)])).base.ratio = 3 := rfl
  intro chunk hc s
  rw [hr] at hc ⊢
  have h2 : chunk.2 = min (5 - chunk.1) 5 := by
    obtain ⟨i, -, rfl⟩ := List.mem_map.1 hc
    rfl
  have := Gpu.lockSched_valid 2 (fwdSteps (chunk.1 * 3) (min (5 - chunk.1) 5 * 3)) s
  rw [← h2] at this
  simp only [← h2]
  exact this

example : ∃ l r, (exU .none).scalarOn exLock = .ok (some l) ∧ l[1]? = some r ∧ (exU .none).scalar 1 = .ok (some r) := by
  obtain ⟨l, h1, -, h2⟩ := C107_scalar_devices (exU .none) (exP ![(0, 7), (0, 9)]) 1 (plan_ok.2 exU_whole)
    (by norm_num [exP]) (.inl (by norm_num [exP])) (fun s hs l hl => by cases hl; exact exLoc_whole s hs)
    (fun s hs l hl => by cases hl; exact exLoc_whole s hs) rfl (by norm_num [exP]) (.inr (.inl (by norm_num [exP])))
    exLock (exLock_ok _ _)
  obtain ⟨r, h3, h4⟩ := h2 1 (by norm_num [exP])
  exact ⟨l, r, h1, h3, h4⟩

end Dw.Scalar

namespace Dw.Acoustic

open Setup Resample

theorem exRev_ok (A : UArgs 2) (P : Plan 2) (np mp : ℕ) (nv mv : Fin 2 → ℕ) (cb : Option ℕ)
    (nt : ℕ) : (Device.cuda fun _ => revSched 2 np nv P.nb P.acc.pad (P.n true)).Admissible
      (batch np mp nv mv A.rfmax P (shotIn A.setup P A.opts.timeTaper)) cb nt :=
  revSched_launches (batch np mp nv mv A.rfmax P (shotIn A.setup P A.opts.timeTaper)) np nv

theorem exU_fwd (s : ℕ) (hs : s < 2) : Fwd (exU .none) (exP ![(0, 7), (0, 9)]) s 1 where
  good := exU_whole
  pre := exU_pre .none
  lt := hs
  pml := .inl (by norm_num [exP, exPl])
  loc := fun l hl => Born.exLoc_whole hs (exU_locs .none l hl)
  last := fun k => .inl (by fin_cases k <;> norm_num [exP, exPl, Plan.w1])
  freq := rfl
  interval := by norm_num [exP, exPl]
  nt := .inr (.inl (by norm_num [exP, exPl]))

example : ∃ l r, (exU .none).acousticOn (fun np nv S => .cuda fun _ =>
      revSched 2 np nv S (exP ![(0, 7), (0, 9)]).acc.pad ((exP ![(0, 7), (0, 9)]).n true)) = .ok (some l) ∧ l[1]? = some r ∧
    (exU .none).acoustic 1 = .ok (some r) ∧ (exU .none).acousticPy 1 = .ok (some r) := by
  obtain ⟨l, h1, -, h2⟩ := C107_acoustic_devices (exU .none) (exP ![(0, 7), (0, 9)]) 1 (by norm_num [exP, exPl])
    exU_fwd (fun np nv S => .cuda fun _ => revSched 2 np nv S (exP ![(0, 7), (0, 9)]).acc.pad ((exP ![(0, 7), (0, 9)]).n true))
    (exRev_ok _ _ _ _ _ _ _ _)
  obtain ⟨r, h3, h4⟩ := h2 1 (by norm_num [exP, exPl])
  obtain ⟨r', h5, h6⟩ := C107_acoustic_python (exU .none) (exP ![(0, 7), (0, 9)]) 1 1 (exU_fwd 1 (by norm_num))
    (by norm_num [exP, exPl])
  cases h4.symm.trans h5
  exact ⟨l, r, h1, h3, h4, h6⟩

/-- One thread per shot; the threads take turns. -/
example : ∃ l r, (exU .none).acousticOn (fun _ _ S => .cpu S (Gpu.lockSteps S 3 5 5)) = .ok (some l) ∧
    l[1]? = some r ∧ (exU .none).acoustic 1 = .ok (some r) := by
  obtain ⟨l, h1, -, h2⟩ := C107_acoustic_devices (exU .none) (exP ![(0, 7), (0, 9)]) 1 (by norm_num [exP, exPl])
    exU_fwd (fun _ _ S => .cpu S (Gpu.lockSteps S 3 5 5)) (Gpu.lockSteps_fwd 2 3 5 5)
  obtain ⟨r, h3, h4⟩ := h2 1 (by norm_num [exP, exPl])
  exact ⟨l, r, h1, h3, h4⟩

end Dw.Acoustic

namespace Dw.Elastic

open Setup Resample

theorem exRev_ok (A : UArgs 2) (P : Plan 2) (np mp : ℕ) (nv mv : Fin 2 → ℕ) (cb : Option ℕ)
    (nt : ℕ) : (Device.cuda fun _ => revSched 2 np nv P.nb P.acc.pad (P.n true)).Admissible
      (batch np mp nv mv A.rfmax P (shotIn A.setup P A.opts.timeTaper)) cb nt :=
  revSched_launches (batch np mp nv mv A.rfmax P (shotIn A.setup P A.opts.timeTaper)) np nv

theorem exU_fwd (s : ℕ) (hs : s < 2) : Fwd (exU .none) (exP ![(0, 7), (0, 9)]) s 1 where
  good := exU_whole
  pre := exU_pre .none
  lt := hs
  pml := .inl (by norm_num [exP, exPl])
  loc := fun l hl => Born.exLoc_whole hs (exU_locs .none l hl)
  last := fun k => .inl (by fin_cases k <;> norm_num [exP, exPl, Plan.w1])
  freq := rfl
  interval := by norm_num [exP, exPl]
  nt := .inr (.inl (by norm_num [exP, exPl]))

example : ∃ l r, (exU .none).elasticOn (fun np nv S => .cuda fun _ =>
      revSched 2 np nv S (exP ![(0, 7), (0, 9)]).acc.pad ((exP ![(0, 7), (0, 9)]).n true)) = .ok (some l) ∧ l[1]? = some r ∧
    (exU .none).elastic 1 = .ok (some r) ∧ ∃ p, (exU .none).elasticPy 1 = .ok (some p) ∧ p.tracesP = r.tracesP := by
  obtain ⟨l, h1, -, h2⟩ := C107_elastic_devices (exU .none) (exP ![(0, 7), (0, 9)]) 1 (by norm_num [exP, exPl])
    exU_fwd (fun np nv S => .cuda fun _ => revSched 2 np nv S (exP ![(0, 7), (0, 9)]).acc.pad ((exP ![(0, 7), (0, 9)]).n true))
    (exRev_ok _ _ _ _ _ _ _ _)
  obtain ⟨r, h3, h4⟩ := h2 1 (by norm_num [exP, exPl])
  obtain ⟨r', p, h5, h6, -, -, h7, -⟩ := C107_elastic_python (by norm_num) (exU .none) (exP ![(0, 7), (0, 9)]) 1 1
    (exU_fwd 1 (by norm_num)) (by norm_num [exP, exPl])
  cases h4.symm.trans h5
  exact ⟨l, r, h1, h3, h4, p, h6, h7⟩

/-- One thread per shot; the threads take turns. -/
example : ∃ l r, (exU .none).elasticOn (fun _ _ S => .cpu S (Gpu.lockSteps S 3 5 5)) = .ok (some l) ∧
    l[1]? = some r ∧ (exU .none).elastic 1 = .ok (some r) := by
  obtain ⟨l, h1, -, h2⟩ := C107_elastic_devices (exU .none) (exP ![(0, 7), (0, 9)]) 1 (by norm_num [exP, exPl])
    exU_fwd (fun _ _ S => .cpu S (Gpu.lockSteps S 3 5 5)) (Gpu.lockSteps_fwd 2 3 5 5)
  obtain ⟨r, h3, h4⟩ := h2 1 (by norm_num [exP, exPl])
  exact ⟨l, r, h1, h3, h4⟩

end Dw.Elastic

namespace Dw.Born

open Setup Resample
open Dw.Scalar (NoElements)

theorem exRev_ok (A : UArgs 2) (P : Plan 2) (ns nr nq : ℕ) (cb : Option ℕ) (nt : ℕ) :
    (Device.cuda fun _ => revSched 2 ns ns P.nb P.acc.pad (P.n false)).Admissible
      (batch ns nr nq P (shotIn A.setup P A.opts.timeTaper)) cb nt :=
  revSched_launches (batch ns nr nq P (shotIn A.setup P A.opts.timeTaper)) ns ns

theorem exU_fwd (s : ℕ) (hs : s < 2) : Fwd (exU .none) (exP ![(0, 7), (0, 9)]) s 1 where
  good := exU_whole
  lt := hs
  pml := .inl (by norm_num [exP, exPl])
  loc := exU_locs hs
  freq := rfl
  interval := by norm_num [exP, exPl]
  nt := .inr (.inl (by norm_num [exP, exPl]))

theorem exU_some : ¬NoElements (exU .none).v := by
  have h0 : ∀ k : Fin 2, (![7, 9] : Fin 2 → ℤ) k ≤ 0 → False := by decide
  rintro (h | ⟨k, h⟩)
  · cases h
  · exact h0 k h

example : ∃ l r, (exU .none).bornOn (fun ns S => .cuda fun _ =>
      revSched 2 ns ns S (exP ![(0, 7), (0, 9)]).acc.pad ((exP ![(0, 7), (0, 9)]).n false)) = .ok (some l) ∧ l[1]? = some r ∧
    (exU .none).born 1 = .ok (some r) ∧ ∃ p, (exU .none).bornPy 1 = .ok (some p) ∧ p.traces = r.traces := by
  obtain ⟨l, h1, -, h2⟩ := C107_born_devices (exU .none) (exP ![(0, 7), (0, 9)]) 1 (by norm_num [exP, exPl])
    exU_some exU_fwd (fun ns S => .cuda fun _ => revSched 2 ns ns S (exP ![(0, 7), (0, 9)]).acc.pad ((exP ![(0, 7), (0, 9)]).n false))
    (exRev_ok _ _ _ _ _ _ _)
  obtain ⟨r, h3, h4⟩ := h2 1 (by norm_num [exP, exPl])
  obtain ⟨r', p, h5, h6, -, -, -, h7, -⟩ := C107_born_python (exU .none) (exP ![(0, 7), (0, 9)]) 1 1 exU_some
    (exU_fwd 1 (by norm_num)) (by norm_num [exP, exPl])
  cases h4.symm.trans h5
  exact ⟨l, r, h1, h3, h4, p, h6, h7⟩

/-- One thread per shot; the threads take turns. -/
example : ∃ l r, (exU .none).bornOn (fun _ S => .cpu S (Gpu.lockSteps S 3 5 5)) = .ok (some l) ∧
    l[1]? = some r ∧ (exU .none).born 1 = .ok (some r) := by
  obtain ⟨l, h1, -, h2⟩ := C107_born_devices (exU .none) (exP ![(0, 7), (0, 9)]) 1 (by norm_num [exP, exPl])
    exU_some exU_fwd (fun _ S => .cpu S (Gpu.lockSteps S 3 5 5)) (Gpu.lockSteps_fwd 2 3 5 5)
  obtain ⟨r, h3, h4⟩ := h2 1 (by norm_num [exP, exPl])
  exact ⟨l, r, h1, h3, h4⟩

end Dw.Born
