import Verif.Scalar.Ref

/-!
# The loop nest visits every interior cell exactly once

Lemmas about `CArgs.visits`, for the forward and backward arguments of the driver.
-/

namespace Dw.Scalar

variable {d ns nr : ℕ} {R : Type*}

/-- The region bounds are ordered. -/
def CArgs.Ordered (A : CArgs d ns nr R) : Prop :=
  ∀ k, (A.acc.pad : ℤ) ≤ A.pmlB k ∧ A.pmlB k ≤ A.pmlE k ∧ A.pmlE k ≤ A.n k - A.acc.pad

theorem CArgs.mem_visits (A : CArgs d ns nr R) (r : Fin d → Region) (c : Cell d) :
    (r, c) ∈ A.visits ↔ ∀ k, A.loopLo k (r k) ≤ c k ∧ c k < A.loopHi k (r k) := by
  simp only [CArgs.visits, List.mem_flatMap, List.mem_map, mem_nest, mem_intRange, Prod.mk.injEq]
  constructor
  · rintro ⟨r', _, c', h, rfl, rfl⟩
    exact h
  · intro h
    refine ⟨r, fun k => ?_, c, h, rfl, rfl⟩
    cases r k <;> simp

theorem CArgs.region_unique {A : CArgs d ns nr R} (h : A.Ordered) (k : Fin d) (x : ℤ)
    (r r' : Region) (h1 : A.loopLo k r ≤ x ∧ x < A.loopHi k r)
    (h2 : A.loopLo k r' ≤ x ∧ x < A.loopHi k r') : r = r' := by
  have := h k
  cases r <;> cases r' <;> simp only [CArgs.loopLo, CArgs.loopHi] at h1 h2 <;>
    first | rfl | (exfalso; omega)

theorem nodup_regions : (nest d fun _ => [Region.lo, Region.mid, Region.hi]).Nodup :=
  nodup_nest d _ fun _ => by decide

theorem CArgs.nodup_visits {A : CArgs d ns nr R} (h : A.Ordered) :
    (A.visits.map Prod.snd).Nodup := by
  simp only [CArgs.visits, List.map_flatMap, List.map_map, Function.comp_def, List.map_id']
  rw [List.nodup_flatMap]
  refine ⟨fun r _ => nodup_nest d _ fun k => nodup_intRange _ _, ?_⟩
  refine nodup_regions.imp ?_
  intro r r' hne
  simp only [Function.onFun, List.disjoint_left, mem_nest, mem_intRange]
  intro c h1 h2
  exact hne (funext fun k => CArgs.region_unique h k (c k) _ _ (h1 k) (h2 k))

/-- The region a coordinate belongs to. -/
def CArgs.regionOf (A : CArgs d ns nr R) (c : Cell d) (k : Fin d) : Region :=
  if c k < A.pmlB k then .lo else if c k < A.pmlE k then .mid else .hi

theorem CArgs.mem_visits_regionOf (A : CArgs d ns nr R) (c : Cell d)
    (h : ∀ k, (A.acc.pad : ℤ) ≤ c k ∧ c k < A.n k - A.acc.pad) :
    (A.regionOf c, c) ∈ A.visits := by
  rw [CArgs.mem_visits]
  intro k
  have := h k
  unfold CArgs.regionOf
  split_ifs <;> simp only [CArgs.loopLo, CArgs.loopHi] <;> omega

theorem CArgs.inner_of_mem_visits {A : CArgs d ns nr R} (h : A.Ordered) {r : Fin d → Region}
    {c : Cell d} (hm : (r, c) ∈ A.visits) (k : Fin d) :
    (A.acc.pad : ℤ) ≤ c k ∧ c k < A.n k - A.acc.pad := by
  rw [CArgs.mem_visits] at hm
  have h1 := hm k
  have h2 := h k
  cases hr : r k <;> simp only [hr, CArgs.loopLo, CArgs.loopHi] at h1 <;> omega

theorem CArgs.regionOf_mid {A : CArgs d ns nr R} (c : Cell d) (k : Fin d) :
    A.regionOf c k = .mid ↔ A.pmlB k ≤ c k ∧ c k < A.pmlE k := by
  unfold CArgs.regionOf
  split_ifs <;> simp <;> omega

variable [Field R] {C : Cfg d ns nr R}

theorem Cfg.ordered_fwd (h : C.WF) : C.fwdArgs.Ordered := by
  intro k
  have := h.w0_nonneg k
  have := h.w1_nonneg k
  have := h.size k
  simp only [Cfg.fwdArgs, Cfg.pmlB, Cfg.pmlE]
  omega

theorem Cfg.ordered_bwd (h : C.WF) : C.bwdArgs.Ordered := by
  intro k
  have := h.w0_nonneg k
  have := h.w1_nonneg k
  have := h.size k
  simp only [Cfg.bwdArgs, Cfg.pmlB, Cfg.pmlE]
  omega

/-- In the middle region of the forward kernel the stencil does not reach the PML. -/
theorem Cfg.fwd_mid (h : C.WF) {c : Cell d} {k : Fin d} (hm : C.fwdArgs.regionOf c k = .mid) {j : ℤ}
    (hj : -(C.acc.pad : ℤ) ≤ j ∧ j ≤ C.acc.pad) : C.Mid k (c k + j) := by
  rw [CArgs.regionOf_mid] at hm
  have := h.w0_nonneg k
  have := h.w1_nonneg k
  simp only [Cfg.fwdArgs, Cfg.pmlB, Cfg.pmlE, Cfg.Mid] at *
  omega

/-- In the middle region of the backward kernel two stencils in a row do not reach the PML. -/
theorem Cfg.bwd_mid (h : C.WF) {c : Cell d} {k : Fin d} (hm : C.bwdArgs.regionOf c k = .mid) {j : ℤ}
    (hj : -2 * (C.acc.pad : ℤ) ≤ j ∧ j ≤ 2 * C.acc.pad) : C.Mid k (c k + j) := by
  rw [CArgs.regionOf_mid] at hm
  have := h.w0_nonneg k
  have := h.w1_nonneg k
  simp only [Cfg.bwdArgs, Cfg.pmlB, Cfg.pmlE, Cfg.Mid] at *
  omega

omit [Field R] in
/-- Result of a loop nest whose body updates the current cell only. -/
theorem CArgs.fold_visits {σ : Type*} {A : CArgs d ns nr R} (h : A.Ordered)
    (body : (Fin d → Region) → Cell d → σ → σ) (m : Cell d → σ) (c : Cell d) :
    foldUpdate body A.visits m c =
      if ∀ k, (A.acc.pad : ℤ) ≤ c k ∧ c k < A.n k - A.acc.pad then body (A.regionOf c) c (m c)
      else m c := by
  split_ifs with hc
  · exact foldUpdate_of_mem body _ m (CArgs.nodup_visits h) _ c (A.mem_visits_regionOf c hc)
  · refine foldUpdate_of_not_mem body _ m c ?_
    intro hm
    obtain ⟨⟨r, c'⟩, hv, rfl⟩ := List.mem_map.1 hm
    exact hc fun k => CArgs.inner_of_mem_visits h hv k

end Dw.Scalar
