import Verif.Gpu.InOrder
import Mathlib.Tactic.Ring

/-!
# C62: snapshots on the GPU do not depend on the scheduling of the streams

The exported CUDA functions run their kernels on one stream and, if the snapshots of the forward
wavefield are copied to the host or compressed, the copies on another stream. The claim: in every
order in which the device may execute the commands (`Exec`), the memory of the kernels (wavefields,
receiver data and gradients) ends up as if every step of the backward pass read the snapshot that
the forward pass made at the same step (`Job.ideal`: a recursion over the steps without streams,
events, staging buffers and slots).

It holds for the functions that use the events in every step (acoustic.cu, elastic.cu). For those
that use them in store steps only (scalar.cu, scalar_born.cu) it holds if the step ratio is 1 or
the number of snapshots made so far is odd at the end of each call of `forward`; it does not hold
in general.
-/

namespace Dw.Gpu

variable {C Q X Y : Type*} [DecidableEq Q]

omit [DecidableEq Q] in
theorem Job.covered_of_uses (J : Job C Q X Y) (h : ∀ t, J.fwdUses t = true) (start nt : ℕ) :
    J.Covered start nt := by
  intro l hl
  cases nt with
  | zero => simp [Job.lastUsed] at hl
  | succ n =>
    simp only [Job.lastUsed, h, if_true, Option.some.injEq] at hl
    simp only [Job.lastOdd, Nat.succ_ne_zero, if_false, h]
    rw [← hl]
    rfl

omit [DecidableEq Q] in
theorem Job.lastUsed_eq (J : Job C Q X Y) (hd : J.dbl = true) (he : J.every = false)
    (s k j : ℕ) (hj : j < J.ratio) :
    J.lastUsed (J.ratio * s) (J.ratio * k + j + 1) = some ((s + k) % 2 != 0) := by
  have hr : 0 < J.ratio := by omega
  induction j with
  | zero =>
    have h1 : J.store (J.ratio * s + (J.ratio * k + 0)) = true := by
      rw [J.store_iff, Nat.add_zero, ← Nat.mul_add, Nat.mul_mod_right]
    have h2 : (J.ratio * s + (J.ratio * k + 0)) / J.ratio = s + k := by
      rw [Nat.add_zero, ← Nat.mul_add, Nat.mul_div_cancel_left _ hr]
    rw [Nat.add_zero] at h1 h2
    simp [Job.lastUsed, Job.fwdUses, hd, h1, Job.odd, h2]
  | succ j ih =>
    have h1 : J.store (J.ratio * s + (J.ratio * k + (j + 1))) = false := by
      rw [Bool.eq_false_iff, ne_eq, J.store_iff, ← Nat.add_assoc, ← Nat.mul_add,
        Nat.mul_add_mod, Nat.mod_eq_of_lt hj]
      omega
    have h2 : J.fwdUses (J.ratio * s + (J.ratio * k + (j + 1))) = false := by
      simp [Job.fwdUses, h1, he]
    have h3 : J.lastUsed (J.ratio * s) (J.ratio * k + (j + 1) + 1)
        = J.lastUsed (J.ratio * s) (J.ratio * k + j + 1) := by
      conv_lhs => rw [Job.lastUsed]
      rw [h2]
      rfl
    rw [h3]
    exact ih (by omega)

/-- acoustic.cu, elastic.cu: events in every step. -/
theorem C62_events_in_every_step (J : Job C Q X Y) (hJ : J.Complete) (hev : J.every = true)
    (fcalls : List (ℕ × ℕ)) (mid : List (C → C)) (bcalls : List (ℕ × ℕ)) (m : Mem C Q X Y)
    (ex : List ℕ) (hex : Exec (J.program fcalls mid bcalls) ex) :
    (runIn J.sem (J.program fcalls mid bcalls) ex m).c
      = J.ideal fcalls mid bcalls ⟨m.c, fun k q => J.dec q (m.slot q k)⟩ := by
  rw [run_eq (J.program_safe fcalls mid bcalls fun hd p _ => ?_) hex, J.run_program hJ]
  exact J.covered_of_uses (fun t => by simp [Job.fwdUses, hd, hev]) _ _

/-- Snapshots kept on the device without compression, or written to disk: no second stream. -/
theorem C62_single_stream (J : Job C Q X Y) (hJ : J.Complete) (hd : J.dbl = false)
    (fcalls : List (ℕ × ℕ)) (mid : List (C → C)) (bcalls : List (ℕ × ℕ)) (m : Mem C Q X Y)
    (ex : List ℕ) (hex : Exec (J.program fcalls mid bcalls) ex) :
    (runIn J.sem (J.program fcalls mid bcalls) ex m).c
      = J.ideal fcalls mid bcalls ⟨m.c, fun k q => J.dec q (m.slot q k)⟩ := by
  rw [run_eq (J.program_safe fcalls mid bcalls fun hd' => ?_) hex, J.run_program hJ]
  rw [hd] at hd'
  exact absurd hd' (by simp)

/-- scalar.cu, scalar_born.cu: events in store steps only. A call covers the steps
`ratio * s, …, ratio * (s + n) - 1`; missing for the full claim: step ratios larger than 1 with an
even number `s + n` of snapshots at the end of a call. -/
theorem C62_events_in_store_steps_partial (J : Job C Q X Y) (hJ : J.Complete)
    (fcalls : List (ℕ × ℕ)) (mid : List (C → C)) (bcalls : List (ℕ × ℕ))
    (hcalls : ∀ p ∈ fcalls, J.ratio = 1 ∨
      ∃ s n, p = (J.ratio * s, J.ratio * n) ∧ (n = 0 ∨ (s + n) % 2 = 1))
    (m : Mem C Q X Y) (ex : List ℕ) (hex : Exec (J.program fcalls mid bcalls) ex) :
    (runIn J.sem (J.program fcalls mid bcalls) ex m).c
      = J.ideal fcalls mid bcalls ⟨m.c, fun k q => J.dec q (m.slot q k)⟩ := by
  by_cases hev : J.every = true
  · exact C62_events_in_every_step J hJ hev fcalls mid bcalls m ex hex
  rw [run_eq (J.program_safe fcalls mid bcalls fun hd p hp => ?_) hex, J.run_program hJ]
  have he : J.every = false := by simpa using hev
  have hone : J.ratio = 1 → J.Covered p.1 p.2 := fun h1 =>
    J.covered_of_uses (fun t => by simp [Job.fwdUses, hd, Job.store, h1, Nat.mod_one]) _ _
  rcases hcalls p hp with h1 | ⟨s, n, rfl, hn⟩
  · exact hone h1
  · by_cases h1 : J.ratio = 1
    · exact hone h1
    intro l hl
    rcases Nat.eq_zero_or_pos J.ratio with h0 | hr
    · simp [h0, Job.lastUsed] at hl
    rcases hn with rfl | hn
    · simp [Job.lastUsed] at hl
    · obtain ⟨k, rfl⟩ : ∃ k, n = k + 1 := ⟨n - 1, by
        rcases n with _ | n
        · simp [Job.lastUsed] at hl
        · rfl⟩
      have hnt : J.ratio * (k + 1) = J.ratio * k + (J.ratio - 1) + 1 := by
        rw [Nat.mul_succ]; omega
      simp only [hnt] at hl ⊢
      rw [J.lastUsed_eq hd he s k (J.ratio - 1) (by omega)] at hl
      injection hl with hl
      have hns : J.store (J.ratio * s + (J.ratio * k + (J.ratio - 1) + 1) - 1) = false := by
        have : J.ratio * s + (J.ratio * k + (J.ratio - 1) + 1) - 1
            = J.ratio * (s + k) + (J.ratio - 1) := by rw [Nat.mul_add]; omega
        rw [this, Bool.eq_false_iff, ne_eq, J.store_iff, Nat.mul_add_mod,
          Nat.mod_eq_of_lt (by omega)]
        omega
      have hodd : ((s + k) % 2 != 0) = false := by
        have : (s + k) % 2 = 0 := by omega
        simp [this]
      rw [← hl, hodd]
      have hu : J.fwdUses (J.ratio * s + (J.ratio * k + (J.ratio - 1) + 1) - 1) = false := by
        simp only [Job.fwdUses, hns, he, Bool.or_self, Bool.and_false]
      simp only [Job.lastOdd, hu, Job.odd, Bool.false_and, ite_self]

/-! ## Concrete cases -/

/-- A wavefield that counts the steps, and a gradient that adds up the snapshots. -/
def exJob (ratio : ℕ) (dbl every staged : Bool) : Job (ℤ × ℤ) Unit ℤ ℤ where
  ratio := ratio
  dbl := dbl
  every := every
  bevery := every
  staged := staged
  qs := [()]
  enc := fun _ x => x
  dec := fun _ x => x
  fkern := fun _ => [⟨fun c => (c.1 + 1, c.2), fun c _ => some c.1⟩]
  fpost := fun _ => []
  bpre := fun _ => []
  bkern := fun _ => [fun x c => (c.1, c.2 + match x with | some x => x () | none => 0)]
  bpost := fun _ => []
  bfin := []

theorem exJob_complete (ratio : ℕ) (dbl every staged : Bool) :
    (exJob ratio dbl every staged).Complete :=
  ⟨fun q => by cases q; simp [exJob], fun t _ c q => by simp [exJob, written]⟩

/-- Executions exist: the program order. -/
theorem exec_range {S E O : Type*} (P : List (Cmd S E O)) : Exec P (List.range P.length) := by
  refine ⟨List.Perm.refl _, fun i j h => ?_⟩
  obtain ⟨hij, ci, cj, hi, hj, _⟩ := h
  have hidx : ∀ k, k < P.length → (List.range P.length).idxOf k = k := by
    intro k hk
    have h2 := (List.nodup_range (n := P.length)).idxOf_getElem k (by simpa using hk)
    simpa using h2
  rw [hidx i (List.getElem?_eq_some_iff.mp hi).1, hidx j (List.getElem?_eq_some_iff.mp hj).1]
  exact hij

/-- Two chunks of forward and backward steps: the snapshots 1 to 4 add up. -/
example (ex : List ℕ) (hex : Exec ((exJob 1 true true true).program [(0, 2), (2, 2)] []
    [(4, 2), (2, 2)]) ex) :
    (runIn (exJob 1 true true true).sem ((exJob 1 true true true).program [(0, 2), (2, 2)] []
      [(4, 2), (2, 2)]) ex ⟨(1, 0), fun _ _ => 0, fun _ => 0, fun _ _ => 0⟩).c = (5, 10) :=
  (C62_events_in_every_step _ (exJob_complete _ _ _ _) rfl _ _ _ _ ex hex).trans (by decide +kernel)

example : Exec ((exJob 1 true true true).program [(0, 2), (2, 2)] [] [(4, 2), (2, 2)])
    (List.range ((exJob 1 true true true).program [(0, 2), (2, 2)] [] [(4, 2), (2, 2)]).length) :=
  exec_range _

/-- The hypotheses of the partial theorem: ratio 2, three snapshots in one call. -/
example (ex : List ℕ) (hex : Exec ((exJob 2 true false false).program [(0, 6)] [] [(6, 6)]) ex) :
    (runIn (exJob 2 true false false).sem ((exJob 2 true false false).program [(0, 6)] [] [(6, 6)])
      ex ⟨(1, 0), fun _ _ => 0, fun _ => 0, fun _ _ => 0⟩).c = (7, 9) :=
  (C62_events_in_store_steps_partial _ (exJob_complete _ _ _ _) [(0, 6)] [] [(6, 6)]
    (by simp only [List.mem_singleton]; rintro p rfl; exact Or.inr ⟨0, 3, rfl, Or.inr rfl⟩)
    _ ex hex).trans (by decide +kernel)

/-- Decidable sufficient condition for an execution of a concrete program. -/
def respects (P : List (Cmd Str Ev Unit)) (ex : List ℕ) : Bool :=
  (List.range P.length).all fun j => (List.range j).all fun i =>
    match P[i]?, P[j]? with
    | some ci, some cj =>
      (decide (ci.stream = cj.stream) || (match ci, cj with
        | .record e _, .wait _ e' => decide (e = e')
        | _, _ => false)) → decide (ex.idxOf i < ex.idxOf j)
    | _, _ => true

/-- A command without its operation. -/
def Cmd.strip {S E O : Type*} : Cmd S E O → Cmd S E Unit
  | .launch s _ => .launch s ()
  | .record e s => .record e s
  | .wait s e => .wait s e

theorem exec_of_respects {O : Type*} (P : List (Cmd Str Ev O)) (ex : List ℕ)
    (hp : ex.Perm (List.range P.length)) (h : respects (P.map Cmd.strip) ex = true) :
    Exec P ex := by
  refine ⟨hp, fun i j hE => ?_⟩
  obtain ⟨hij, ci, cj, hi, hj, hor⟩ := hE
  have hjl := (List.getElem?_eq_some_iff.mp hj).1
  unfold respects at h
  rw [List.all_eq_true] at h
  have h1 := h j (by simpa using hjl)
  rw [List.all_eq_true] at h1
  have h2 := h1 i (by simpa using hij)
  rw [List.getElem?_map, List.getElem?_map, hi, hj] at h2
  simp only [Option.map_some, decide_eq_true_eq] at h2
  refine h2 ?_
  rcases hor with hs | ⟨e, s, s', rfl, rfl, _⟩
  · have : ci.strip.stream = cj.strip.stream := by
      cases ci <;> cases cj <;> exact hs
    simp [this]
  · simp [Cmd.strip]

/-- scalar.cu and scalar_born.cu, step ratio 2, one call of `forward` with two snapshots, one of
`backward`: an execution in which the second snapshot is saved after everything else. The backward
pass then uses the initial content of the slot. -/
theorem C62_fails_for_events_in_store_steps :
    ∃ (ex : List ℕ) (m : Mem (ℤ × ℤ) Unit ℤ ℤ),
      Exec ((exJob 2 true false false).program [(0, 4)] [] [(4, 4)]) ex ∧
      (runIn (exJob 2 true false false).sem ((exJob 2 true false false).program [(0, 4)] [] [(4, 4)])
        ex m).c ≠ (exJob 2 true false false).ideal [(0, 4)] [] [(4, 4)]
          ⟨m.c, fun k q => (exJob 2 true false false).dec q (m.slot q k)⟩ := by
  refine ⟨List.range 13 ++ (List.range' 15 (35 - 15) ++ [13, 14]),
    ⟨(1, 0), fun _ _ => 0, fun _ => 0, fun _ _ => 0⟩, ?_, ?_⟩
  · refine exec_of_respects _ _ ?_ ?_
    · decide +kernel
    · decide +kernel
  · decide +kernel

end Dw.Gpu
