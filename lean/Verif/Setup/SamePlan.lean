import Verif.Setup.Linear

/-!
# Calls with the same options have the same plan, apart from models and locations
-/

namespace Dw.Setup

variable {d : ℕ}

/-- The numbers that a plan contains. -/
structure Plan.Same (P Q : Plan d) : Prop where
  dxL : Q.dxL = P.dxL
  maxVel : Q.maxVel = P.maxVel
  dt : Q.dt = P.dt
  ratio : Q.ratio = P.ratio
  accZ : Q.accZ = P.accZ
  wL : Q.wL = P.wL
  freq : Q.freq = P.freq
  nt : Q.nt = P.nt
  interval : Q.interval = P.interval
  ff : Q.ff = P.ff
  tf : Q.tf = P.tf

theorem ok_unique {α : Type} {x : Except PyErr α} {a b : α} (h : x = .ok a) (h' : x = .ok b) : a = b :=
  Except.ok.inj (h.symm.trans h')

/-- The number of time steps does not depend on which amplitudes are looked at. -/
theorem setNt_unique {nt : Option PyNum} {amps amps' : List (Option ℕ)} {ratio n n' : ℤ}
    (h : setNt nt amps ratio = .ok n) (h' : setNt nt amps' ratio = .ok n')
    (hall : ∀ a, some a ∈ amps → (a : ℤ) * ratio = n) (hsub : ∀ a, some a ∈ amps' → some a ∈ amps) : n' = n := by
  have hhead : ∀ {l : List (Option ℕ)} {a : ℕ}, (l.filterMap id).head? = some a → some a ∈ l := by
    intro l a hl
    obtain ⟨x, hx, e⟩ := List.mem_filterMap.1 (List.mem_of_head? hl)
    simp only [id] at e
    exact e ▸ hx
  have hb : ∀ {a : ℕ}, (amps'.filterMap id).head? = some a → (a : ℤ) * ratio = n :=
    fun ha => hall _ (hsub _ (hhead ha))
  unfold setNt at h h'
  rcases nt with _ | (z | q | -)
  · simp only at h h'
    by_cases hr : ratio < 1
    · simp [hr] at h
    · simp only [if_neg hr] at h h'
      cases ha : (amps'.filterMap id).head? with
      | none => rw [ha] at h'; cases h'
      | some a =>
          rw [ha] at h'
          have := hb ha
          have := Except.ok.inj h'
          omega
  · simp only at h h'
    by_cases hr : ratio < 1
    · simp [hr] at h
    · simp only [if_neg hr] at h h'
      have key : ∀ {l : List (Option ℕ)} {m : ℤ}, (match some z, (l.filterMap id).head? with
          | none, none => (Except.error .runtimeError : Except PyErr ℤ)
          | none, some a => .ok (a * ratio)
          | some n, some a => if n ≠ a then .error .runtimeError else if n < 0 then .error .runtimeError
              else .ok (n * ratio)
          | some n, none => if n < 0 then .error .runtimeError else .ok (n * ratio)) = .ok m → m = z * ratio := by
        intro l m hm
        cases hl : (l.filterMap id).head? with
        | none =>
            rw [hl] at hm
            simp only at hm
            split_ifs at hm
            exact (Except.ok.inj hm).symm
        | some a =>
            rw [hl] at hm
            simp only at hm
            split_ifs at hm
            exact (Except.ok.inj hm).symm
      exact (key h').trans (key h).symm
  · cases h
  · cases h

/-- Two accepted calls with the same options, amplitudes of the same length and the same maximum velocity. -/
theorem SetupArgs.Good.same {A B : SetupArgs d} {P Q : Plan d} (h : A.Good P) (hq : B.Good Q)
    (h1 : B.gridSpacing = A.gridSpacing) (h2 : B.dt = A.dt) (h3 : B.accuracy = A.accuracy)
    (h4 : B.pmlWidth = A.pmlWidth) (h5 : B.pmlFreq = A.pmlFreq) (h6 : B.nt = A.nt) (h7 : B.interval = A.interval)
    (h8 : B.freqTaperFrac = A.freqTaperFrac) (h9 : B.timePadFrac = A.timePadFrac) (h10 : B.maxVel = A.maxVel)
    (hmax : A.maxVel ≠ none ∨ B.maxModelVel = A.maxModelVel)
    (hamp : ∀ a, some a ∈ B.amps → ∃ b, some b ∈ A.amps ∧ b.nt = a.nt) : P.Same Q := by
  have e2 : Q.dxL = P.dxL := ok_unique (h1 ▸ hq.dx) h.dx
  have e3 : Q.maxVel = P.maxVel := by
    have g1 := hq.maxVel
    have g2 := h.maxVel
    rw [h10] at g1
    rcases hmax with hv | hv
    · unfold setMaxVelR at g1 g2
      cases hm : A.maxVel with
      | none => exact absurd hm hv
      | some x =>
          simp only [hm] at g1 g2
          exact ok_unique g1 g2
    · rw [hv] at g1
      exact ok_unique g1 g2
  have e4 : (Q.dt, Q.ratio) = (P.dt, P.ratio) := by
    have g1 := hq.cfl
    rw [e2, e3, h2] at g1
    exact ok_unique g1 h.cfl
  have e7 : Q.ratio = P.ratio := congrArg Prod.snd e4
  refine ⟨e2, e3, congrArg Prod.fst e4, e7, ok_unique (h3 ▸ hq.acc) h.acc, ok_unique (h4 ▸ hq.width) h.width, ?_, ?_,
    ok_unique (h7 ▸ hq.interval) h.interval, ok_unique (h8 ▸ hq.ff) h.ff, ok_unique (h9 ▸ hq.tf) h.tf⟩
  · have g1 := hq.freq
    rw [e7, h5, h2] at g1
    exact ok_unique g1 h.freq
  · have g1 := hq.nt
    rw [e7, h6] at g1
    refine setNt_unique h.nt g1 ?_ ?_
    · intro a ha
      obtain ⟨o, ho, e⟩ := List.mem_map.1 ha
      cases o with
      | none => cases e
      | some x =>
          obtain rfl := Option.some.inj e
          exact ((checkAmps_ok.1 h.amps) x ho).2.1
    · intro a ha
      obtain ⟨o, ho, e⟩ := List.mem_map.1 ha
      cases o with
      | none => cases e
      | some x =>
          obtain rfl := Option.some.inj e
          obtain ⟨b, hb, eb⟩ := hamp x ho
          exact List.mem_map.2 ⟨some b, hb, by rw [← eb]; rfl⟩

theorem Plan.Same.eq {P Q : Plan d} (h : P.Same Q) (hext : Q.ext = P.ext) :
    Q = {P with nb := Q.nb, models := Q.models, srcs := Q.srcs, rcvs := Q.rcvs} := by
  obtain ⟨e1, e2, e3, e4, e5, e6, e7, e8, e9, e10, e11⟩ := h
  cases Q
  cases P
  simp only at e1 e2 e3 e4 e5 e6 e7 e8 e9 e10 e11 hext
  subst e1 e2 e3 e4 e5 e6 e7 e8 e9 e10 e11 hext
  rfl

theorem Plan.Same.grid {P Q : Plan d} (h : P.Same Q) (hext : Q.ext = P.ext) : Q.grid = P.grid := by
  rw [h.eq hext]
  rfl

end Dw.Setup
