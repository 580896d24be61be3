import Verif.Scalar.Model

/-!
# Loop nests over PML regions

The staggered-grid kernels loop over the regions `(pml_z, pml_y, pml_x)` and, for each of them,
run one or more loop nests over the cells of the region, with bounds given by arrays such as
`pml_bounds_x = {FD_PAD, pml_x0, pml_x1, nx - FD_PAD + 1}`.  `κ` numbers the loop nests run for a
region; nest `k` updates only its own arrays.
-/

namespace Dw

open Scalar (Region)

variable {d : ℕ}

/-- The four entries of the bounds arrays, for every dimension. -/
structure Bounds (d : ℕ) where
  lo : Fin d → ℤ
  b : Fin d → ℤ
  e : Fin d → ℤ
  hi : Fin d → ℤ

/-- `bounds[pml]`. -/
def Bounds.fst (B : Bounds d) (k : Fin d) : Region → ℤ
  | .lo => B.lo k
  | .mid => B.b k
  | .hi => B.e k

/-- `bounds[pml + 1]`. -/
def Bounds.snd (B : Bounds d) (k : Fin d) : Region → ℤ
  | .lo => B.b k
  | .mid => B.e k
  | .hi => B.hi k

/-- The visits of the loop nests `ks`, in order. -/
def regionVisits {κ : Type*} (ks : List κ) (B : κ → Bounds d) :
    List ((Fin d → Region) × (κ × Cell d)) :=
  (nest d fun _ => [Region.lo, Region.mid, Region.hi]).flatMap fun r =>
    ks.flatMap fun k =>
      (nest d fun j => intRange ((B k).fst j (r j)) ((B k).snd j (r j))).map fun c => (r, (k, c))

/-- The bounds are ordered. -/
def Bounds.Ordered (B : Bounds d) : Prop := ∀ k, B.lo k ≤ B.b k ∧ B.b k ≤ B.e k ∧ B.e k ≤ B.hi k

/-- The cells covered. -/
def Bounds.In (B : Bounds d) (c : Cell d) : Prop := ∀ k, B.lo k ≤ c k ∧ c k < B.hi k

instance (B : Bounds d) (c : Cell d) : Decidable (B.In c) := inferInstanceAs (Decidable (∀ _, _))

/-- The region a coordinate belongs to. -/
def Bounds.regionOf (B : Bounds d) (c : Cell d) (k : Fin d) : Region :=
  if c k < B.b k then .lo else if c k < B.e k then .mid else .hi

theorem Bounds.regionOf_mid {B : Bounds d} (c : Cell d) (k : Fin d) :
    B.regionOf c k = .mid ↔ B.b k ≤ c k ∧ c k < B.e k := by
  unfold Bounds.regionOf
  split_ifs <;> simp <;> omega

variable {κ : Type*} {ks : List κ} {B : κ → Bounds d}

theorem mem_regionVisits (r : Fin d → Region) (k : κ) (c : Cell d) :
    (r, (k, c)) ∈ regionVisits ks B ↔
      k ∈ ks ∧ ∀ j, (B k).fst j (r j) ≤ c j ∧ c j < (B k).snd j (r j) := by
  simp only [regionVisits, List.mem_flatMap, List.mem_map, mem_nest, mem_intRange, Prod.mk.injEq]
  constructor
  · rintro ⟨r', _, k', hk, c', h, rfl, rfl, rfl⟩
    exact ⟨hk, h⟩
  · rintro ⟨hk, h⟩
    refine ⟨r, fun j => ?_, k, hk, c, h, rfl, rfl, rfl⟩
    cases r j <;> simp

theorem Bounds.region_unique {B : Bounds d} (h : B.Ordered) (k : Fin d) (x : ℤ) (r r' : Region)
    (h1 : B.fst k r ≤ x ∧ x < B.snd k r) (h2 : B.fst k r' ≤ x ∧ x < B.snd k r') : r = r' := by
  have := h k
  cases r <;> cases r' <;> simp only [Bounds.fst, Bounds.snd] at h1 h2 <;>
    first | rfl | (exfalso; omega)

theorem nodup_regionVisits (h : ∀ k ∈ ks, (B k).Ordered) (hk : ks.Nodup) :
    ((regionVisits ks B).map Prod.snd).Nodup := by
  simp only [regionVisits, List.map_flatMap, List.map_map, Function.comp_def]
  rw [List.nodup_flatMap]
  refine ⟨fun r _ => ?_, ?_⟩
  · rw [List.nodup_flatMap]
    refine ⟨fun k _ => (nodup_nest d _ fun j => nodup_intRange _ _).map fun c c' hc => ?_, ?_⟩
    · simpa using hc
    · refine hk.imp ?_
      intro k k' hne
      simp only [Function.onFun, List.disjoint_left, List.mem_map, not_exists, not_and]
      rintro _ ⟨c, _, rfl⟩ c' _ hc
      simp only [Prod.mk.injEq] at hc
      exact hne hc.1.symm
  · refine (nodup_nest d (fun _ => [Region.lo, Region.mid, Region.hi]) fun _ => by decide).imp ?_
    intro r r' hne
    simp only [Function.onFun, List.disjoint_left, List.mem_flatMap, List.mem_map, mem_nest,
      mem_intRange]
    rintro _ ⟨k, hkm, c, h1, rfl⟩ ⟨k', _, c', h2, h3⟩
    simp only [Prod.mk.injEq] at h3
    obtain ⟨rfl, rfl⟩ := h3
    exact hne (funext fun j => Bounds.region_unique (h _ hkm) j (c' j) _ _ (h1 j) (h2 j))

/-- Result of the loop nests when each body updates its own arrays at the current cell only. -/
theorem fold_regionVisits [DecidableEq κ] {σ : Type*} (h : ∀ k ∈ ks, (B k).Ordered) (hk : ks.Nodup)
    (body : (Fin d → Region) → κ × Cell d → σ → σ) (m : κ × Cell d → σ) (k : κ) (hks : k ∈ ks)
    (c : Cell d) :
    foldUpdate body (regionVisits ks B) m (k, c) =
      if (B k).In c then body ((B k).regionOf c) (k, c) (m (k, c)) else m (k, c) := by
  split_ifs with hc
  · refine foldUpdate_of_mem body _ m (nodup_regionVisits h hk) _ _ ?_
    rw [mem_regionVisits]
    refine ⟨hks, fun j => ?_⟩
    have := hc j
    unfold Bounds.regionOf
    split_ifs <;> simp only [Bounds.fst, Bounds.snd] <;> omega
  · refine foldUpdate_of_not_mem body _ m _ ?_
    intro hm
    obtain ⟨⟨r, k', c'⟩, hv, h2⟩ := List.mem_map.1 hm
    simp only [Prod.mk.injEq] at h2
    obtain ⟨rfl, rfl⟩ := h2
    rw [mem_regionVisits] at hv
    refine hc fun j => ?_
    have h1 := hv.2 j
    have h2 := h _ hks j
    cases hr : r j <;> simp only [hr, Bounds.fst, Bounds.snd] at h1 <;> omega

end Dw
