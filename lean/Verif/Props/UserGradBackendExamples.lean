import Verif.Props.UserBackendExamples
import Verif.Props.UserGradBackendScalar
import Verif.Props.UserGradBackendAcoustic
import Verif.Props.UserGradBackendElastic
import Verif.Props.UserGradBackendBorn

/-!
# Instances of C110

Calls with two shots and shared models: forward and backward on a CUDA device with reversed threads, and forward on
the CUDA device but backward on the CPU with one thread per shot in lockstep.
-/

namespace Dw.Scalar

open Setup Resample

theorem exBack_ok (ns nr : ℕ) (P : Plan 2) (cb : Option ℕ) (nt : ℕ) :
    (BDevice.cuda (fun _ => Gpu.revSched 2 nr P.nb P.acc.pad (P.n false))
      fun _ => (Gpu.work 2 1 P.acc.pad (P.n false)).reverse).Admissible (batch ns nr P) cb nt :=
  ⟨fun _ => ⟨List.reverse_perm _, Gpu.readsFirst_valid _ _⟩, fun _ => List.reverse_perm _⟩

noncomputable def exRevD (ns S : ℕ) : Device 2 ns S :=
  .cuda fun _ => Gpu.revSched 2 ns S (exP ![(0, 7), (0, 9)]).acc.pad ((exP ![(0, 7), (0, 9)]).n false)

noncomputable def exRevE (nr S : ℕ) : BDevice 2 nr S :=
  .cuda (fun _ => Gpu.revSched 2 nr S (exP ![(0, 7), (0, 9)]).acc.pad ((exP ![(0, 7), (0, 9)]).n false))
    fun _ => (Gpu.work 2 1 (exP ![(0, 7), (0, 9)]).acc.pad ((exP ![(0, 7), (0, 9)]).n false)).reverse

example : ∃ u b, (exU .none).backwardOn exRevD exRevE false (fun _ _ t => if t = 4 then 1 else 0) (fun _ => ⟨fun _ => 0, fun _ => 0, fun _ _ => 0, fun _ _ => 0⟩) =
        .ok (some u) ∧
    (exU .none).backward 1 false (fun _ t => if t = 4 then 1 else 0) ⟨fun _ => 0, fun _ => 0, fun _ _ => 0, fun _ _ => 0⟩ =
      .ok (some (b 1)) ∧ u.shots[1]? = some ((b 1).amps, (b 1).wf) ∧
    u.v 0 = (exU .none).vGrad (exP ![(0, 7), (0, 9)]) b 0 := by
  obtain ⟨u, b, h1, -, h2, h3⟩ := C110_scalar (exU .none) (exP ![(0, 7), (0, 9)]) 1 (plan_ok.2 exU_whole)
    (by norm_num [exP]) (.inl (by norm_num [exP])) (fun s hs l hl => by cases hl; exact exLoc_whole s hs)
    (fun s hs l hl => by cases hl; exact exLoc_whole s hs) rfl (by norm_num [exP]) (.inl (by norm_num [exP]))
    exRevD exRevE false (exRev_ok _ _ _ _ _) (exBack_ok _ _ _ _ _) (.inl rfl) (fun _ _ t => if t = 4 then 1 else 0)
    (fun _ => ⟨fun _ => 0, fun _ => 0, fun _ _ => 0, fun _ _ => 0⟩)
  obtain ⟨h4, h5⟩ := h2 1 (by norm_num [exP])
  exact ⟨u, b, h1, h4, h5, h3 0 (by decide)⟩

end Dw.Scalar

namespace Dw.Acoustic

open Setup Resample

theorem exBack_ok (A : UArgs 2) (P : Plan 2) (np mp : ℕ) (nv mv : Fin 2 → ℕ) (cb : Option ℕ)
    (nt : ℕ) : (BDevice.cuda (fun _ => revSched 2 mp mv P.nb P.acc.pad (P.n true))
      fun _ _ => (Gpu.cells 0 (P.n true)).reverse).Admissible
      (batch np mp nv mv A.rfmax P (shotIn A.setup P A.opts.timeTaper)) cb nt :=
  ⟨revSched_launches (batch np mp nv mv A.rfmax P (shotIn A.setup P A.opts.timeTaper)) mp mv,
    fun _ _ => List.reverse_perm _⟩

noncomputable def exRevD (np : ℕ) (nv : Fin 2 → ℕ) (S : ℕ) : Device 2 np nv S :=
  .cuda fun _ => revSched 2 np nv S (exP ![(0, 7), (0, 9)]).acc.pad ((exP ![(0, 7), (0, 9)]).n true)

noncomputable def exRevE (mp : ℕ) (mv : Fin 2 → ℕ) (S : ℕ) : BDevice 2 mp mv S :=
  .cuda (fun _ => revSched 2 mp mv S (exP ![(0, 7), (0, 9)]).acc.pad ((exP ![(0, 7), (0, 9)]).n true))
    fun _ _ => (Gpu.cells 0 ((exP ![(0, 7), (0, 9)]).n true)).reverse

theorem exU_runs (s : ℕ) (hs : s < 2) : Runs (exU .none) (exP ![(0, 7), (0, 9)]) s 1 where
  good := exU_whole
  pre := exU_pre .none
  lt := hs
  pml := .inl (by norm_num [exP, exPl])
  loc := fun l hl => Born.exLoc_whole hs (exU_locs .none l hl)
  last := fun k => .inl (by fin_cases k <;> norm_num [exP, exPl, Plan.w1])
  big := fun k => by fin_cases k <;> decide +kernel
  freq := rfl
  interval := by norm_num [exP, exPl]
  nt := .inl (by norm_num [exP, exPl])

example : ∃ u b, (exU .none).backwardOn exRevD exRevE false (fun _ _ t => if t = 4 then 1 else 0) (fun _ _ _ _ => 0)
      (fun _ => ⟨fun _ => 0, fun _ _ => 0, fun _ _ => 0, fun _ _ => 0⟩) = .ok (some u) ∧
    (exU .none).backward 1 false (fun _ t => if t = 4 then 1 else 0) (fun _ _ _ => 0)
      ⟨fun _ => 0, fun _ _ => 0, fun _ _ => 0, fun _ _ => 0⟩ = .ok (some (b 1)) ∧
    u.shots[1]? = some ⟨(b 1).ampP, (b 1).ampV, (b 1).wf⟩ ∧
    u.rho = (exU .none).rhoGrad (exP ![(0, 7), (0, 9)]) b := by
  obtain ⟨u, b, h1, -, h2, -, h3⟩ := C110_acoustic (exU .none) (exP ![(0, 7), (0, 9)]) 1 (by norm_num [exP, exPl])
    exU_runs exRevD exRevE false (exRev_ok _ _ _ _ _ _ _ _) (exBack_ok _ _ _ _ _ _ _ _) (.inl rfl)
    (fun _ _ t => if t = 4 then 1 else 0) (fun _ _ _ _ => 0)
    (fun _ => ⟨fun _ => 0, fun _ _ => 0, fun _ _ => 0, fun _ _ => 0⟩)
  obtain ⟨h4, h5⟩ := h2 1 (by norm_num [exP, exPl])
  exact ⟨u, b, h1, h4, h5, h3⟩

/-- Backward on the CPU, one thread per shot; the threads take turns. -/
example : ∃ u b, (exU .none).backwardOn exRevD (fun _ _ S => .cpu S (Gpu.lockStepsB S 3 5))
      false (fun _ _ t => if t = 4 then 1 else 0) (fun _ _ _ _ => 0)
      (fun _ => ⟨fun _ => 0, fun _ _ => 0, fun _ _ => 0, fun _ _ => 0⟩) = .ok (some u) ∧
    u.v = (exU .none).vGrad (exP ![(0, 7), (0, 9)]) b := by
  obtain ⟨u, b, h1, -, -, h3, -⟩ := C110_acoustic (exU .none) (exP ![(0, 7), (0, 9)]) 1 (by norm_num [exP, exPl])
    exU_runs exRevD (fun _ _ S => .cpu S (Gpu.lockStepsB S 3 5)) false (exRev_ok _ _ _ _ _ _ _ _)
    (Gpu.lockSteps_bwd 2 3 5 5) (.inl rfl) (fun _ _ t => if t = 4 then 1 else 0) (fun _ _ _ _ => 0)
    (fun _ => ⟨fun _ => 0, fun _ _ => 0, fun _ _ => 0, fun _ _ => 0⟩)
  exact ⟨u, b, h1, h3⟩

end Dw.Acoustic

namespace Dw.Elastic

open Setup Resample

theorem exBack_ok (A : UArgs 2) (P : Plan 2) (np mp : ℕ) (nv mv : Fin 2 → ℕ) (cb : Option ℕ)
    (nt : ℕ) : (BDevice.cuda (fun _ => revSched 2 mp mv P.nb P.acc.pad (P.n true))
      fun _ _ => (Gpu.cells 0 (P.n true)).reverse).Admissible
      (batch np mp nv mv A.rfmax P (shotIn A.setup P A.opts.timeTaper)) cb nt :=
  ⟨revSched_launches (batch np mp nv mv A.rfmax P (shotIn A.setup P A.opts.timeTaper)) mp mv,
    fun _ _ => List.reverse_perm _⟩

noncomputable def exRevD (np : ℕ) (nv : Fin 2 → ℕ) (S : ℕ) : Device 2 np nv S :=
  .cuda fun _ => revSched 2 np nv S (exP ![(0, 7), (0, 9)]).acc.pad ((exP ![(0, 7), (0, 9)]).n true)

noncomputable def exRevE (mp : ℕ) (mv : Fin 2 → ℕ) (S : ℕ) : BDevice 2 mp mv S :=
  .cuda (fun _ => revSched 2 mp mv S (exP ![(0, 7), (0, 9)]).acc.pad ((exP ![(0, 7), (0, 9)]).n true))
    fun _ _ => (Gpu.cells 0 ((exP ![(0, 7), (0, 9)]).n true)).reverse

theorem exU_runs (s : ℕ) (hs : s < 2) : Runs (exU .none) (exP ![(0, 7), (0, 9)]) s 1 where
  good := exU_whole
  pre := exU_pre .none
  lt := hs
  pml := .inl (by norm_num [exP, exPl])
  loc := fun l hl => Born.exLoc_whole hs (exU_locs .none l hl)
  last := fun k => .inl (by fin_cases k <;> norm_num [exP, exPl, Plan.w1])
  big := fun k => by fin_cases k <;> decide +kernel
  freq := rfl
  interval := by norm_num [exP, exPl]
  nt := .inl (by norm_num [exP, exPl])

example : ∃ u b, (exU .none).backwardOn exRevD exRevE false (fun _ _ t => if t = 4 then 1 else 0) (fun _ _ _ _ => 0)
      (fun _ => ⟨fun _ _ => 0, fun _ _ => 0, fun _ _ => 0, fun _ _ _ => 0, fun _ _ _ => 0⟩) = .ok (some u) ∧
    (exU .none).backward 1 false (fun _ t => if t = 4 then 1 else 0) (fun _ _ _ => 0)
      ⟨fun _ _ => 0, fun _ _ => 0, fun _ _ => 0, fun _ _ _ => 0, fun _ _ _ => 0⟩ = .ok (some (b 1)) ∧
    u.shots[1]? = some ⟨(b 1).ampP, (b 1).ampV, (b 1).wf⟩ ∧
    u.mu = (exU .none).muGrad (exP ![(0, 7), (0, 9)]) b := by
  obtain ⟨u, b, h1, -, h2, -, h3, -⟩ := C110_elastic (exU .none) (exP ![(0, 7), (0, 9)]) 1 (by norm_num [exP, exPl])
    exU_runs exRevD exRevE false (exRev_ok _ _ _ _ _ _ _ _) (exBack_ok _ _ _ _ _ _ _ _) (.inl rfl)
    (fun _ _ t => if t = 4 then 1 else 0) (fun _ _ _ _ => 0)
    (fun _ => ⟨fun _ _ => 0, fun _ _ => 0, fun _ _ => 0, fun _ _ _ => 0, fun _ _ _ => 0⟩)
  obtain ⟨h4, h5⟩ := h2 1 (by norm_num [exP, exPl])
  exact ⟨u, b, h1, h4, h5, h3⟩

/-- Backward on the CPU, one thread per shot; the threads take turns. -/
example : ∃ u b, (exU .none).backwardOn exRevD (fun _ _ S => .cpu S (Gpu.lockStepsB S 3 5))
      false (fun _ _ t => if t = 4 then 1 else 0) (fun _ _ _ _ => 0)
      (fun _ => ⟨fun _ _ => 0, fun _ _ => 0, fun _ _ => 0, fun _ _ _ => 0, fun _ _ _ => 0⟩) = .ok (some u) ∧
    u.buoyancy = (exU .none).buoyancyGrad (exP ![(0, 7), (0, 9)]) b := by
  obtain ⟨u, b, h1, -, -, -, -, h3⟩ := C110_elastic (exU .none) (exP ![(0, 7), (0, 9)]) 1 (by norm_num [exP, exPl])
    exU_runs exRevD (fun _ _ S => .cpu S (Gpu.lockStepsB S 3 5)) false (exRev_ok _ _ _ _ _ _ _ _)
    (Gpu.lockSteps_bwd 2 3 5 5) (.inl rfl) (fun _ _ t => if t = 4 then 1 else 0) (fun _ _ _ _ => 0)
    (fun _ => ⟨fun _ _ => 0, fun _ _ => 0, fun _ _ => 0, fun _ _ _ => 0, fun _ _ _ => 0⟩)
  exact ⟨u, b, h1, h3⟩

end Dw.Elastic

namespace Dw.Born

open Setup Resample
open Dw.Scalar (NoElements Wavefields)

theorem exBack_ok (A : UArgs 2) (P : Plan 2) (ns nr nq : ℕ) (cb : Option ℕ) (nt : ℕ) :
    (BDevice.cuda (fun _ => revSched 2 nr nq P.nb P.acc.pad (P.n false))
      (fun _ _ => (Gpu.cells P.acc.pad (P.n false)).reverse) (fun _ => Gpu.revSched 2 nq P.nb P.acc.pad (P.n false))
      fun _ _ => (Gpu.cells P.acc.pad (P.n false)).reverse).Admissible
      (batch ns nr nq P (shotIn A.setup P A.opts.timeTaper)) cb nt :=
  ⟨⟨revSched_launches (batch ns nr nq P (shotIn A.setup P A.opts.timeTaper)) nr nq, fun _ _ => List.reverse_perm _⟩,
    fun _ => ⟨List.reverse_perm _, Gpu.readsFirst_valid _ _⟩, fun _ _ => List.reverse_perm _⟩

noncomputable def exRevD (ns S : ℕ) : Device 2 ns S :=
  .cuda fun _ => revSched 2 ns ns S (exP ![(0, 7), (0, 9)]).acc.pad ((exP ![(0, 7), (0, 9)]).n false)

noncomputable def exRevE (nr nq S : ℕ) : BDevice 2 nr nq S :=
  .cuda (fun _ => revSched 2 nr nq S (exP ![(0, 7), (0, 9)]).acc.pad ((exP ![(0, 7), (0, 9)]).n false))
    (fun _ _ => (Gpu.cells (exP ![(0, 7), (0, 9)]).acc.pad ((exP ![(0, 7), (0, 9)]).n false)).reverse)
    (fun _ => Gpu.revSched 2 nq S (exP ![(0, 7), (0, 9)]).acc.pad ((exP ![(0, 7), (0, 9)]).n false))
    fun _ _ => (Gpu.cells (exP ![(0, 7), (0, 9)]).acc.pad ((exP ![(0, 7), (0, 9)]).n false)).reverse

theorem exU_runs (s : ℕ) (hs : s < 2) : Runs (exU .none) (exP ![(0, 7), (0, 9)]) s 1 where
  good := exU_whole
  lt := hs
  pml := .inl (by norm_num [exP, exPl])
  loc := exU_locs hs
  freq := rfl
  interval := by norm_num [exP, exPl]
  nt := .inl (by norm_num [exP, exPl])

/-- With the gradients of the source amplitudes (`full`) and without. -/
example (full : Bool) : ∃ u b, (exU .none).backwardOn exRevD exRevE full false (fun _ _ _ => 0) (fun _ _ t => if t = 4 then 1 else 0) (fun _ => Wavefields.zero 2)
      (fun _ => Wavefields.zero 2) = .ok (some u) ∧
    (exU .none).backward 1 full false (fun _ _ => 0) (fun _ t => if t = 4 then 1 else 0) (Wavefields.zero 2)
      (Wavefields.zero 2) = .ok (some (b 1)) ∧ u.shots[1]? = some ⟨(b 1).amps, (b 1).wf, (b 1).wfsc⟩ ∧
    u.scatter = (exU .none).scatterGrad (exP ![(0, 7), (0, 9)]) b := by
  obtain ⟨u, b, h1, -, h2, -, h3⟩ := C110_born (exU .none) (exP ![(0, 7), (0, 9)]) 1 (by norm_num [exP, exPl])
    exU_some exU_runs exRevD exRevE full false (exRev_ok _ _ _ _ _ _ _) (exBack_ok _ _ _ _ _ _ _) (.inl rfl)
    (fun _ _ _ => 0) (fun _ _ t => if t = 4 then 1 else 0) (fun _ => Wavefields.zero 2) (fun _ => Wavefields.zero 2)
  obtain ⟨h4, h5⟩ := h2 1 (by norm_num [exP, exPl])
  exact ⟨u, b, h1, h4, h5, h3⟩

/-- Backward on the CPU, one thread per shot; the threads take turns. -/
example : ∃ u b, (exU .none).backwardOn exRevD (fun _ _ S => .cpu S (Gpu.lockStepsB S 3 5)) true false (fun _ _ _ => 0) (fun _ _ t => if t = 4 then 1 else 0)
      (fun _ => Wavefields.zero 2) (fun _ => Wavefields.zero 2) = .ok (some u) ∧
    u.v = (exU .none).vGrad (exP ![(0, 7), (0, 9)]) b := by
  obtain ⟨u, b, h1, -, -, h3, -⟩ := C110_born (exU .none) (exP ![(0, 7), (0, 9)]) 1 (by norm_num [exP, exPl])
    exU_some exU_runs exRevD (fun _ _ S => .cpu S (Gpu.lockStepsB S 3 5)) true false (exRev_ok _ _ _ _ _ _ _)
    (Gpu.lockSteps_bwd 2 3 5 5) (.inl rfl)
    (fun _ _ _ => 0) (fun _ _ t => if t = 4 then 1 else 0) (fun _ => Wavefields.zero 2) (fun _ => Wavefields.zero 2)
  exact ⟨u, b, h1, h3⟩

end Dw.Born
