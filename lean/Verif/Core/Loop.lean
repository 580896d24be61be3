import Mathlib.Data.List.Perm.Basic
import Mathlib.Data.List.Nodup
import Mathlib.Data.Fin.Tuple.Basic
import Mathlib.Data.Int.Interval
import Mathlib.Logic.Function.Basic

/-!
# Nested loops with in-place updates

The C kernels are nests of `for` loops whose body reads arrays that the nest does
not write, and reads and writes other arrays only at the current cell.  This file
gives the loop nest as a list of visits and the in-place execution as a fold, and
proves that such a fold is a pointwise update whatever the order of the visits.
-/

namespace Dw

/-- `int64_t` loop `for (x = lo; x < hi; ++x)` as the list of values taken by `x`. -/
def intRange (lo hi : ℤ) : List ℤ :=
  (List.range (hi - lo).toNat).map fun j : ℕ => lo + (j : ℤ)

theorem mem_intRange {lo hi x : ℤ} : x ∈ intRange lo hi ↔ lo ≤ x ∧ x < hi := by
  unfold intRange
  simp only [List.mem_map, List.mem_range]
  constructor
  · rintro ⟨j, hj, rfl⟩
    omega
  · intro h
    exact ⟨(x - lo).toNat, by omega, by omega⟩

theorem nodup_intRange (lo hi : ℤ) : (intRange lo hi).Nodup := by
  unfold intRange
  refine List.Nodup.map ?_ List.nodup_range
  intro a b h
  simp at h
  exact h

/-- A nest of `d` loops, dimension `0` outermost: the tuples in the order visited. -/
def nest {α : Type*} : (d : ℕ) → (Fin d → List α) → List (Fin d → α)
  | 0, _ => [Fin.elim0]
  | d + 1, L => (L 0).flatMap fun a => (nest d fun k => L k.succ).map fun f => Fin.cons a f

theorem mem_nest {α : Type*} : ∀ (d : ℕ) (L : Fin d → List α) (f : Fin d → α),
    f ∈ nest d L ↔ ∀ k, f k ∈ L k
  | 0, L, f => by
      simp only [nest, List.mem_singleton]
      constructor
      · intro _ k; exact k.elim0
      · intro _; funext k; exact k.elim0
  | d + 1, L, f => by
      simp only [nest, List.mem_flatMap, List.mem_map, mem_nest d]
      constructor
      · rintro ⟨a, ha, g, hg, rfl⟩ k
        refine Fin.cases ?_ (fun j => ?_) k
        · simpa using ha
        · simpa using hg j
      · intro h
        refine ⟨f 0, h 0, fun k => f k.succ, fun k => h k.succ, ?_⟩
        funext k
        refine Fin.cases ?_ (fun j => ?_) k <;> simp

theorem nodup_nest {α : Type*} : ∀ (d : ℕ) (L : Fin d → List α),
    (∀ k, (L k).Nodup) → (nest d L).Nodup
  | 0, _, _ => by simp [nest]
  | d + 1, L, h => by
      simp only [nest]
      rw [List.nodup_flatMap]
      refine ⟨fun a _ => ?_, ?_⟩
      · refine List.Nodup.map ?_ (nodup_nest d _ fun k => h k.succ)
        intro f g hfg
        funext k
        have := congrFun hfg k.succ
        simpa using this
      · refine (h 0).imp ?_
        intro a b hab
        simp only [Function.onFun, List.disjoint_left, List.mem_map, not_exists, not_and]
        rintro f ⟨g, _, rfl⟩ g' _ hh
        have := congrFun hh 0
        simp at this
        exact hab this.symm

/-- In-place execution of a loop nest: visit `(r, c)` replaces the state of cell `c`
by `body r c` of its current state. -/
def foldUpdate {ρ ι σ : Type*} [DecidableEq ι] (body : ρ → ι → σ → σ)
    (l : List (ρ × ι)) (m : ι → σ) : ι → σ :=
  l.foldl (fun m v => Function.update m v.2 (body v.1 v.2 (m v.2))) m

theorem foldUpdate_cons {ρ ι σ : Type*} [DecidableEq ι] (body : ρ → ι → σ → σ)
    (v : ρ × ι) (l : List (ρ × ι)) (m : ι → σ) :
    foldUpdate body (v :: l) m =
      foldUpdate body l (Function.update m v.2 (body v.1 v.2 (m v.2))) := rfl

theorem foldUpdate_of_not_mem {ρ ι σ : Type*} [DecidableEq ι] (body : ρ → ι → σ → σ)
    (l : List (ρ × ι)) (m : ι → σ) (c : ι) (h : c ∉ l.map Prod.snd) :
    foldUpdate body l m c = m c := by
  induction l generalizing m with
  | nil => rfl
  | cons v l ih =>
      simp only [List.map_cons, List.mem_cons, not_or] at h
      rw [foldUpdate_cons]
      rw [ih _ h.2, Function.update_of_ne h.1]

/-- If no cell is visited twice, every visited cell receives exactly the update of its
own visit, computed from the state before the loop. -/
theorem foldUpdate_of_mem {ρ ι σ : Type*} [DecidableEq ι] (body : ρ → ι → σ → σ)
    (l : List (ρ × ι)) (m : ι → σ) (hn : (l.map Prod.snd).Nodup) (r : ρ) (c : ι)
    (h : (r, c) ∈ l) : foldUpdate body l m c = body r c (m c) := by
  induction l generalizing m with
  | nil => simp at h
  | cons v l ih =>
      simp only [List.map_cons, List.nodup_cons] at hn
      rw [foldUpdate_cons]
      rcases List.mem_cons.mp h with h | h
      · subst h
        rw [foldUpdate_of_not_mem _ _ _ _ hn.1]
        simp
      · rw [ih _ hn.2 h]
        have hne : c ≠ v.2 := by
          rintro rfl
          exact hn.1 (List.mem_map.mpr ⟨_, h, rfl⟩)
        rw [Function.update_of_ne hne]

/-- Execution order does not matter: any permutation of the visits gives the same memory. -/
theorem foldUpdate_perm {ρ ι σ : Type*} [DecidableEq ι] (body : ρ → ι → σ → σ)
    (l l' : List (ρ × ι)) (hp : l.Perm l') (hn : (l.map Prod.snd).Nodup) (m : ι → σ) :
    foldUpdate body l m = foldUpdate body l' m := by
  funext c
  have hn' : (l'.map Prod.snd).Nodup := (hp.map Prod.snd).nodup_iff.mp hn
  by_cases h : c ∈ l.map Prod.snd
  · obtain ⟨v, hv, rfl⟩ := List.mem_map.mp h
    rw [foldUpdate_of_mem body l m hn v.1 v.2 hv,
      foldUpdate_of_mem body l' m hn' v.1 v.2 (hp.mem_iff.mp hv)]
  · rw [foldUpdate_of_not_mem _ _ _ _ h, foldUpdate_of_not_mem]
    rwa [← (hp.map Prod.snd).mem_iff]

end Dw
