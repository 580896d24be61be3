import Mathlib.Data.Int.Interval
import Verif.Hicks.Alone
import Mathlib.Algebra.BigOperators.Intervals
import Mathlib.Tactic.Positivity
import Mathlib.Tactic.LinearCombination

/-!
# Folding at a free surface
-/

namespace Dw.Hicks

variable {K : Type*} [Field K] [LinearOrder K] [FloorRing K]

/-- The field continued beyond the surfaces as an odd function (surfaces at integers and halves). -/
def odd (S : Surf K) (g : ℤ → K) : ℤ → K := fun c =>
  if ∃ f, S.lo = some f ∧ (c : K) < f then -g (⌊2 * S.lo.getD 0⌋ - c)
  else if ∃ f, S.hi = some f ∧ f < (c : K) then -g (⌊2 * S.hi.getD 0⌋ - c)
  else g c

omit [LinearOrder K] [FloorRing K] in
theorem zipWith_sum_range (l : ℕ → ℤ) (k : ℕ → K) (g : ℤ → K) (n : ℕ) :
    (List.zipWith (fun c w => w * g c) ((List.range n).map l) ((List.range n).map k)).sum =
      ∑ i ∈ Finset.range n, k i * g (l i) := by
  rw [List.zipWith_map]
  induction n with
  | zero => simp
  | succ n ih =>
      rw [List.range_succ, List.zipWith_append rfl, List.sum_append, ih, Finset.sum_range_succ]
      simp

theorem drop_map_range {α : Type*} (f : ℕ → α) (m n : ℕ) :
    ((List.range (m + n)).map f).drop m = (List.range n).map fun i => f (m + i) := by
  rw [List.range_add, List.map_append, List.drop_left' (by simp), List.map_map]
  rfl

theorem take_map_range {α : Type*} (f : ℕ → α) (m n : ℕ) :
    ((List.range (m + n)).map f).take m = (List.range m).map f := by
  rw [List.range_add, List.map_append, List.take_left' (by simp)]

theorem reverse_map_range {α : Type*} (f : ℕ → α) (n : ℕ) :
    ((List.range n).map f).reverse = (List.range n).map fun j => f (n - 1 - j) := by
  refine List.ext_getElem (by simp) fun i h1 h2 => ?_
  simp at h1
  simp [List.getElem_reverse]

omit [LinearOrder K] [FloorRing K] in
theorem subSlice_range (k y : ℕ → K) (m L r : ℕ) (s e : ℤ) (hs : s = m) (he : e = m + L) :
    subSlice ((List.range (m + L + r)).map k) s e ((List.range L).map y) =
    .ok ((List.range m).map k ++ (List.range L).map (fun j => k (m + j) - y j)
      ++ (List.range r).map fun i => k (m + L + i)) := by
  subst hs he
  have b1 : bound (m + L + r) (m : ℤ) = m := by simp only [bound]; rw [if_neg (by omega)]; omega
  have b2 : bound (m + L + r) ((m : ℤ) + L) = m + L := by
    simp only [bound]; rw [if_neg (by omega)]; omega
  have e1 : m + L - m = L := by omega
  simp only [subSlice, List.length_map, List.length_range, b1, b2, e1, if_true]
  rw [drop_map_range k (m + L) r]
  have e2 : ((List.range (m + L + r)).map k).take m = (List.range m).map k := by
    rw [add_assoc, take_map_range]
  have e3 : (((List.range (m + L + r)).map k).drop m).take L = (List.range L).map fun j => k (m + j) := by
    rw [add_assoc, drop_map_range, take_map_range]
  rw [e2, e3, List.zipWith_map, List.zipWith_self]

variable [IsStrictOrderedRing K]

theorem isclose_round {f : K} {z : ℤ} (hz : (z : K) = 2 * f) (hb : |f| < 10 ^ 8) :
    isclose (pyRound f : K) f = decide (z % 2 = 0) := by
  rcases Int.emod_two_eq_zero_or_one z with h | h
  · obtain ⟨q, rfl⟩ : ∃ q, z = 2 * q := ⟨z / 2, by omega⟩
    have hf : f = q := by push_cast at hz; linarith
    subst hf
    have hr : pyRound (q : K) = q := by simp [pyRound]
    rw [hr]
    simp [isclose, h]
  · obtain ⟨q, rfl⟩ : ∃ q, z = 2 * q + 1 := ⟨z / 2, by omega⟩
    have hf : f = q + 1 / 2 := by push_cast at hz; linarith
    have hfl : ⌊f⌋ = q := by
      rw [Int.floor_eq_iff, hf]
      constructor <;> linarith
    have hd : |(pyRound f : K) - f| = 1 / 2 := by
      have e : f - q = 1 / 2 := by rw [hf]; ring
      simp only [pyRound, hfl, e, lt_irrefl, if_false]
      split_ifs
      · rw [abs_sub_comm, e, abs_of_pos (by positivity)]
      · push_cast
        rw [show (q : K) + 1 - f = 1 / 2 by rw [hf]; ring, abs_of_pos (by positivity)]
    have hm : max |(pyRound f : K)| |f| ≤ 10 ^ 8 + 1 / 2 := by
      refine max_le ?_ (by linarith)
      have h1 : |(pyRound f : K)| ≤ |(pyRound f : K) - f| + |f| := by
        have := abs_add_le ((pyRound f : K) - f) f
        simpa using this
      linarith
    simp only [isclose, h, hd]
    rw [decide_eq_decide]
    simp only [one_ne_zero, iff_false, not_le]
    have h9 : (1 : K) / 10 ^ 9 * max |(pyRound f : K)| |f| ≤ 1 / 10 ^ 9 * (10 ^ 8 + 1 / 2) :=
      mul_le_mul_of_nonneg_left hm (by positivity)
    refine lt_of_le_of_lt h9 ?_
    norm_num

/-- Folding at the beginning applies the weights to the odd continuation. -/
theorem foldLo_range (l0 : ℤ) (n : ℕ) (k : ℕ → K) {f : K} {z : ℤ} (hz : (z : K) = 2 * f)
    (hb : |f| < 10 ^ 8) (h0 : (l0 : K) < f) (hn : z - l0 < l0 + n) :
    ∃ m ≤ n, ∃ cut view, foldLo (some f) ((List.range n).map fun i : ℕ => l0 + i)
        ((List.range n).map k) = .ok (((List.range n).map fun i : ℕ => l0 + i).drop m, cut, view) ∧
      m + view.length = n ∧ m < n ∧
      ∀ g : ℤ → K, (∀ c : ℤ, (c : K) = f → g c = 0) →
        (List.zipWith (fun c w => w * g c) (((List.range n).map fun i : ℕ => l0 + i).drop m) view).sum =
          ∑ i ∈ Finset.range n, k i *
            if ((l0 + i : ℤ) : K) < f then -g (z - (l0 + i)) else g (l0 + i) := by
  -- `m` cells are cut off; `t` is 1 if the surface is on a cell
  have hzl : 2 * l0 < z := by
    have : ((2 * l0 : ℤ) : K) < z := by rw [hz]; push_cast; linarith
    exact_mod_cast this
  have hlt : ∀ i : ℕ, ((l0 + i : ℤ) : K) < f ↔ 2 * (l0 + i) < z := by
    intro i
    rw [← Int.cast_lt (R := K), hz]
    push_cast
    constructor <;> intro h <;> linarith
  obtain ⟨t, ht, ht1⟩ : ∃ t : ℕ, (t : ℤ) = 1 - z % 2 ∧ t ≤ 1 := ⟨(1 - z % 2).toNat, by omega, by omega⟩
  obtain ⟨m, hm⟩ : ∃ m : ℕ, 2 * (m : ℤ) + t - 1 = z - 2 * l0 :=
    ⟨((z - 2 * l0 + 1 - t) / 2).toNat, by omega⟩
  have hm0 : 0 < m := by omega
  obtain ⟨r, hr⟩ : ∃ r, n = m + (m + t) + r := ⟨n - (m + (m + t)), by omega⟩
  have hceil : ⌈f - l0⌉ = m := by
    rw [Int.ceil_eq_iff]
    have e : ((2 * m + t - 1 : ℤ) : K) = z - 2 * l0 := by rw [hm]; push_cast; ring
    have ht0 : (0 : K) ≤ t := Nat.cast_nonneg t
    have ht1' : (t : K) ≤ 1 := by exact_mod_cast ht1
    push_cast at e
    push_cast
    constructor <;> linarith
  have hclose : (if isclose (pyRound f : K) f then (1 : ℤ) else 0) = t := by
    rw [isclose_round hz hb]
    rcases Int.emod_two_eq_zero_or_one z with h | h <;> simp [h] <;> omega
  have hlen : ((List.range n).map k).length = n := by simp
  obtain ⟨rest, hrest⟩ : ∃ rest, (List.range n).map (fun i : ℕ => l0 + i) = l0 :: rest := by
    obtain ⟨n', rfl⟩ : ∃ n', n = n' + 1 := ⟨n - 1, by omega⟩
    rw [List.range_succ_eq_map]
    simp
  have hbd : ∀ a : ℕ, a ≤ n → bound n (a : ℤ) = a := fun a ha => by
    simp only [bound]; rw [if_neg (by omega)]; omega
  have hy : ((((List.range n).map k).take (bound n ((m : ℤ) + t))).reverse) =
      (List.range (m + t)).map fun j => k (m + t - 1 - j) := by
    have e := hbd (m + t) (by omega)
    push_cast at e
    rw [e]
    have e2 : n = (m + t) + (m + r) := by omega
    rw [e2, take_map_range, reverse_map_range]
  have hsub := subSlice_range k (fun j => k (m + t - 1 - j)) m (m + t) r (m : ℤ) ((m : ℤ) + (m + t : ℕ))
    rfl (by push_cast; ring)
  rw [← hr] at hsub
  refine ⟨m, by omega, (List.range m).map k, (List.range (m + t)).map (fun j => k (m + j)
    - k (m + t - 1 - j)) ++ (List.range r).map fun i => k (m + (m + t) + i), ?_, ?_, by omega, ?_⟩
  · rw [hrest]
    simp only [foldLo]
    rw [if_pos h0, hceil, hclose, hlen, hy, List.length_map, List.length_range, hsub]
    dsimp only
    have hl2 : (l0 :: rest).length = n := by rw [← hrest]; simp
    have hl3 : ((List.range m).map k ++ (List.range (m + t)).map (fun j => k (m + j)
        - k (m + t - 1 - j)) ++ (List.range r).map fun i => k (m + (m + t) + i)).length = n := by
      simp [hr]
      omega
    rw [hl2, hl3, hbd m (by omega), List.append_assoc, List.take_left' (by simp),
      List.drop_left' (by simp)]
  · simp [hr]
    omega
  · intro g hg
    have hdl : ((List.range n).map fun i : ℕ => l0 + i).drop m =
        (List.range (m + t)).map (fun j : ℕ => l0 + (m + j : ℕ)) ++
          (List.range r).map fun i : ℕ => l0 + (m + (m + t) + i : ℕ) := by
      have e2 : n = m + (m + t + r) := by omega
      rw [e2, drop_map_range, List.range_add, List.map_append, List.map_map]
      congr 1
      refine List.map_congr_left fun i _ => ?_
      simp only [Function.comp_apply]
      push_cast
      ring
    rw [hdl, List.zipWith_append (by simp), List.sum_append, zipWith_sum_range, zipWith_sum_range]
    rw [hr, Finset.sum_range_add _ (m + (m + t)) r, Finset.sum_range_add _ m (m + t)]
    have s1 : ∑ i ∈ Finset.range m, k i * (if ((l0 + i : ℤ) : K) < f then -g (z - (l0 + i))
        else g (l0 + i)) = -∑ i ∈ Finset.range m, k i * g (z - (l0 + i)) := by
      rw [← Finset.sum_neg_distrib]
      refine Finset.sum_congr rfl fun i hi => ?_
      rw [Finset.mem_range] at hi
      rw [if_pos ((hlt i).2 (by omega)), mul_neg]
    have s2 : ∀ i, k (m + i) * (if ((l0 + (m + i : ℕ) : ℤ) : K) < f then -g (z - (l0 + (m + i : ℕ)))
        else g (l0 + (m + i : ℕ))) = k (m + i) * g (l0 + (m + i : ℕ)) := by
      intro i
      rw [if_neg fun h => ?_]
      have := (hlt (m + i)).1 h
      push_cast at this
      omega
    have s3 : ∀ i, k (m + (m + t) + i) * (if ((l0 + (m + (m + t) + i : ℕ) : ℤ) : K) < f
        then -g (z - (l0 + (m + (m + t) + i : ℕ))) else g (l0 + (m + (m + t) + i : ℕ))) =
        k (m + (m + t) + i) * g (l0 + (m + (m + t) + i : ℕ)) := by
      intro i
      rw [if_neg fun h => ?_]
      have := (hlt (m + (m + t) + i)).1 h
      push_cast at this
      omega
    simp only [s2, s3]
    rw [s1]
    have s4 : ∑ i ∈ Finset.range (m + t), (k (m + i) - k (m + t - 1 - i)) * g (l0 + (m + i : ℕ)) =
        ∑ i ∈ Finset.range (m + t), k (m + i) * g (l0 + (m + i : ℕ))
          - ∑ i ∈ Finset.range (m + t), k i * g (z - (l0 + i)) := by
      rw [← Finset.sum_range_reflect (fun i => k i * g (z - (l0 + i))), ← Finset.sum_sub_distrib]
      refine Finset.sum_congr rfl fun i hi => ?_
      rw [Finset.mem_range] at hi
      have e : z - (l0 + (m + t - 1 - i : ℕ)) = l0 + (m + i : ℕ) := by omega
      rw [e]
      ring
    have s5 : ∑ i ∈ Finset.range (m + t), k i * g (z - (l0 + i)) =
        ∑ i ∈ Finset.range m, k i * g (z - (l0 + i)) := by
      rw [Finset.sum_range_add]
      have : ∑ i ∈ Finset.range t, k (m + i) * g (z - (l0 + (m + i : ℕ))) = 0 := by
        refine Finset.sum_eq_zero fun i hi => ?_
        rw [Finset.mem_range] at hi
        rw [hg, mul_zero]
        have e : 2 * (z - (l0 + (m + i : ℕ))) = z := by omega
        have e' : (2 : K) * ((z - (l0 + (m + i : ℕ)) : ℤ) : K) = z := by exact_mod_cast e
        rw [hz] at e'
        exact mul_left_cancel₀ two_ne_zero e'
      rw [this, add_zero]
    rw [s4, s5]
    ring

/-- Folding at the end applies the weights to the odd continuation. -/
theorem foldHi_range (l0 : ℤ) (n : ℕ) (k : ℕ → K) {f : K} {z : ℤ} (hz : (z : K) = 2 * f)
    (hb : |f| < 10 ^ 8) (h0 : f < ((l0 + n - 1 : ℤ) : K)) (hn0 : 0 < n) (hn : l0 ≤ z - (l0 + n - 1)) :
    ∃ p ≤ n, ∃ w view, foldHi (some f) ((List.range n).map fun i : ℕ => l0 + i)
        ((List.range n).map k) = .ok (((List.range n).map fun i : ℕ => l0 + i).take p, w, view) ∧
      w.length = p ∧
      ∀ g : ℤ → K, (∀ c : ℤ, (c : K) = f → g c = 0) →
        (List.zipWith (fun c w => w * g c) (((List.range n).map fun i : ℕ => l0 + i).take p) w).sum =
          ∑ i ∈ Finset.range n, k i *
            if f < ((l0 + i : ℤ) : K) then -g (z - (l0 + i)) else g (l0 + i) := by
  have hzl : z < 2 * (l0 + n - 1) := by
    have : (z : K) < ((2 * (l0 + n - 1) : ℤ) : K) := by
      rw [hz]; push_cast at h0 ⊢; linarith
    exact_mod_cast this
  have hlt : ∀ i : ℕ, f < ((l0 + i : ℤ) : K) ↔ z < 2 * (l0 + i) := by
    intro i
    rw [← Int.cast_lt (R := K), hz]
    push_cast
    constructor <;> intro h <;> linarith
  obtain ⟨t, ht, ht1⟩ : ∃ t : ℕ, (t : ℤ) = 1 - z % 2 ∧ t ≤ 1 := ⟨(1 - z % 2).toNat, by omega, by omega⟩
  obtain ⟨q, hq⟩ : ∃ q : ℕ, 2 * (q : ℤ) + t - 1 = 2 * (l0 + n - 1) - z :=
    ⟨((2 * (l0 + n - 1) - z + 1 - t) / 2).toNat, by omega⟩
  have hq0 : 0 < q := by omega
  obtain ⟨m, hm⟩ : ∃ m, n = m + (t + q) + q := ⟨n - (t + q) - q, by omega⟩
  have hceil : ⌈((l0 + n - 1 : ℤ) : K) - f⌉ = q := by
    rw [Int.ceil_eq_iff]
    have e : ((2 * q + t - 1 : ℤ) : K) = ((2 * (l0 + n - 1) - z : ℤ) : K) := by rw [hq]
    have ht0 : (0 : K) ≤ t := Nat.cast_nonneg t
    have ht1' : (t : K) ≤ 1 := by exact_mod_cast ht1
    push_cast at e
    push_cast
    constructor <;> linarith
  have hclose : (if isclose (pyRound f : K) f then (1 : ℤ) else 0) = t := by
    rw [isclose_round hz hb]
    rcases Int.emod_two_eq_zero_or_one z with h | h <;> simp [h] <;> omega
  have hlen : ((List.range n).map k).length = n := by simp
  have hlast : ((List.range n).map fun i : ℕ => l0 + i).getLast? = some (l0 + n - 1) := by
    obtain ⟨n', rfl⟩ : ∃ n', n = n' + 1 := ⟨n - 1, by omega⟩
    rw [List.range_succ, List.map_append, List.map_singleton, List.getLast?_concat]
    push_cast
    congr 1
    ring
  have hbd : ∀ (a : ℕ) (b : ℤ), b = a → a ≤ n → bound n b = a := fun a b hab ha => by
    subst hab
    simp only [bound]; rw [if_neg (by omega)]; omega
  have hy : ((((List.range n).map k).drop (bound n ((n : ℤ) - 1 - q - t + 1))).reverse) =
      (List.range (t + q)).map fun j => k (m + q + (t + q - 1 - j)) := by
    rw [hbd (m + q) _ (by omega) (by omega)]
    have e2 : n = (m + q) + (t + q) := by omega
    rw [e2, drop_map_range, reverse_map_range]
  have hsub := subSlice_range k (fun j => k (m + q + (t + q - 1 - j))) m (t + q) q
    ((n : ℤ) - 1 - q + 1 - (t + q : ℕ)) ((n : ℤ) - 1 - q + 1) (by omega) (by omega)
  rw [← hm] at hsub
  refine ⟨m + (t + q), by omega, (List.range m).map k ++ (List.range (t + q)).map fun j => k (m + j)
    - k (m + q + (t + q - 1 - j)),
    (List.range m).map k ++ (List.range (t + q)).map (fun j => k (m + j)
      - k (m + q + (t + q - 1 - j))) ++ (List.range q).map fun i => k (m + (t + q) + i), ?_, by simp, ?_⟩
  · simp only [foldHi, hlast]
    rw [if_pos h0, hceil, hclose, hlen, hy, List.length_map, List.length_range, hsub]
    dsimp only
    have hl3 : ((List.range m).map k ++ (List.range (t + q)).map (fun j => k (m + j)
        - k (m + q + (t + q - 1 - j))) ++ (List.range q).map fun i => k (m + (t + q) + i)).length = n := by
      simp [hm]
      omega
    rw [hl3, List.length_map, List.length_range, hbd (m + (t + q)) _ (by omega) (by omega),
      List.take_left' (by simp)]
  · intro g hg
    have hdl : ((List.range n).map fun i : ℕ => l0 + i).take (m + (t + q)) =
        (List.range m).map (fun j : ℕ => l0 + (j : ℤ)) ++
          (List.range (t + q)).map fun i : ℕ => l0 + (m + i : ℕ) := by
      rw [hm, take_map_range, List.range_add, List.map_append, List.map_map]
      rfl
    rw [hdl, List.zipWith_append (by simp), List.sum_append, zipWith_sum_range, zipWith_sum_range]
    rw [hm, Finset.sum_range_add _ (m + (t + q)) q, Finset.sum_range_add _ m (t + q)]
    have s1 : ∑ i ∈ Finset.range m, k i * (if f < ((l0 + i : ℤ) : K) then -g (z - (l0 + i))
        else g (l0 + i)) = ∑ i ∈ Finset.range m, k i * g (l0 + i) := by
      refine Finset.sum_congr rfl fun i hi => ?_
      rw [Finset.mem_range] at hi
      rw [if_neg fun h => ?_]
      have := (hlt i).1 h
      omega
    have s2 : ∑ i ∈ Finset.range (t + q), k (m + i) * (if f < ((l0 + (m + i : ℕ) : ℤ) : K)
        then -g (z - (l0 + (m + i : ℕ))) else g (l0 + (m + i : ℕ))) =
        ∑ i ∈ Finset.range (t + q), k (m + i) * g (l0 + (m + i : ℕ)) := by
      refine Finset.sum_congr rfl fun i hi => ?_
      rw [Finset.mem_range] at hi
      rw [if_neg fun h => ?_]
      have := (hlt (m + i)).1 h
      push_cast at this
      omega
    have s3 : ∑ i ∈ Finset.range q, k (m + (t + q) + i) * (if f < ((l0 + (m + (t + q) + i : ℕ) : ℤ) : K)
        then -g (z - (l0 + (m + (t + q) + i : ℕ))) else g (l0 + (m + (t + q) + i : ℕ))) =
        -∑ i ∈ Finset.range q, k (m + (t + q) + i) * g (z - (l0 + (m + (t + q) + i : ℕ))) := by
      rw [← Finset.sum_neg_distrib]
      refine Finset.sum_congr rfl fun i _ => ?_
      rw [if_pos ((hlt _).2 (by push_cast; omega)), mul_neg]
    rw [s1, s2, s3]
    have s4 : ∑ i ∈ Finset.range (t + q), (k (m + i) - k (m + q + (t + q - 1 - i)))
          * g (l0 + (m + i : ℕ)) =
        ∑ i ∈ Finset.range (t + q), k (m + i) * g (l0 + (m + i : ℕ))
          - ∑ i ∈ Finset.range (t + q), k (m + q + i) * g (z - (l0 + (m + q + i : ℕ))) := by
      rw [← Finset.sum_range_reflect (fun i => k (m + q + i) * g (z - (l0 + (m + q + i : ℕ)))),
        ← Finset.sum_sub_distrib]
      refine Finset.sum_congr rfl fun i hi => ?_
      rw [Finset.mem_range] at hi
      have e : z - (l0 + (m + q + (t + q - 1 - i) : ℕ)) = l0 + (m + i : ℕ) := by omega
      rw [e]
      ring
    have s5 : ∑ i ∈ Finset.range (t + q), k (m + q + i) * g (z - (l0 + (m + q + i : ℕ))) =
        ∑ i ∈ Finset.range q, k (m + (t + q) + i) * g (z - (l0 + (m + (t + q) + i : ℕ))) := by
      rw [Finset.sum_range_add]
      have : ∑ i ∈ Finset.range t, k (m + q + i) * g (z - (l0 + (m + q + i : ℕ))) = 0 := by
        refine Finset.sum_eq_zero fun i hi => ?_
        rw [Finset.mem_range] at hi
        rw [hg, mul_zero]
        have e : 2 * (z - (l0 + (m + q + i : ℕ))) = z := by omega
        have e' : (2 : K) * ((z - (l0 + (m + q + i : ℕ)) : ℤ) : K) = z := by exact_mod_cast e
        rw [hz] at e'
        exact mul_left_cancel₀ two_ne_zero e'
      rw [this, zero_add]
      refine Finset.sum_congr rfl fun i _ => ?_
      have e : m + q + (t + i) = m + (t + q) + i := by omega
      rw [e]
    rw [s4, s5]
    ring

/-! ### The value at a point -/

/-- The value which interpolation along one dimension should give: that of the cell if the point is on
one, otherwise the windowed sum over the odd continuation of the field. -/
def interp (P : Params K) (u : Use K) (g : ℤ → K) : K :=
  if u.mono = true ∧ |u.x - pyRound u.x| < P.eps then g (pyRound u.x)
  else ∑ c ∈ Finset.Ioc (pyInt u.x - P.halfwidth) (pyInt u.x + P.halfwidth),
    P.ker u.mono ((c : K) - u.x) * odd u.S g c

/-- Surfaces are at cells or half-way between, the point is between them, and they are further apart
than the window is long. -/
structure Placed (P : Params K) (u : Use K) : Prop where
  nonneg : 0 ≤ u.x
  lo : ∀ f, u.S.lo = some f → (∃ z : ℤ, (z : K) = 2 * f) ∧ |f| < 10 ^ 8 ∧ f ≤ u.x
  hi : ∀ f, u.S.hi = some f → (∃ z : ℤ, (z : K) = 2 * f) ∧ |f| < 10 ^ 8 ∧ u.x < f
  wide : ∀ f f', u.S.lo = some f → u.S.hi = some f' → 2 * (P.halfwidth : K) ≤ f' - f

/-- The field vanishes on the free surfaces. -/
def Vanishes (S : Surf K) (g : ℤ → K) : Prop :=
  ∀ c : ℤ, (S.lo = some (c : K) ∨ S.hi = some (c : K)) → g c = 0

omit [IsStrictOrderedRing K] in
theorem sum_window (P : Params K) (x : K) (F : ℤ → K) :
    ∑ c ∈ Finset.Ioc (pyInt x - (P.halfwidth : ℤ)) (pyInt x + P.halfwidth), F c =
      ∑ i ∈ Finset.range (2 * P.halfwidth), F (pyInt x - P.halfwidth + 1 + i) := by
  symm
  refine Finset.sum_bij (fun (i : ℕ) _ => pyInt x - (P.halfwidth : ℤ) + 1 + i) ?_ ?_ ?_ ?_
  · intro i hi
    rw [Finset.mem_range] at hi
    rw [Finset.mem_Ioc]
    omega
  · intro i _ j _ h
    omega
  · intro c hc
    rw [Finset.mem_Ioc] at hc
    exact ⟨(c - (pyInt x - P.halfwidth + 1)).toNat, Finset.mem_range.2 (by omega), by omega⟩
  · intro i _
    rfl

theorem oneDim_interp {P : Params K} (hw : 1 ≤ P.halfwidth) {u : Use K} (hu : Placed P u) :
    ∃ c l w, oneDim P (fun _ => none) u.x u.S u.mono = .ok (c, l, w) ∧
      ∀ g, Vanishes u.S g → (List.zipWith (fun c w => w * g c) l w).sum = interp P u g := by
  obtain ⟨x, S, mono⟩ := u
  by_cases ho : mono = true ∧ |x - pyRound x| < P.eps
  · refine ⟨_, _, _, by rw [oneDim, if_pos ho], fun g _ => ?_⟩
    simp [interp, ho]
  have hfl : pyInt x = ⌊x⌋ := if_pos hu.nonneg
  set l0 : ℤ := pyInt x - P.halfwidth + 1 with hl0
  set n : ℕ := 2 * P.halfwidth with hn
  have hwin : window P x = (List.range n).map fun i : ℕ => l0 + i := rfl
  have hraw : (offsets P x).map (P.ker mono) =
      (List.range n).map fun i : ℕ => P.ker mono (((l0 + i : ℤ) : K) - x) := by
    rw [offsets, List.map_map]
    refine List.map_congr_left fun i _ => ?_
    rw [Function.comp_apply]
    congr 1
    rw [hl0]
    push_cast
    ring
  have hval : ∀ g, interp P ⟨x, S, mono⟩ g = ∑ i ∈ Finset.range n,
      P.ker mono (((l0 + i : ℤ) : K) - x) * odd S g (l0 + i) := by
    intro g
    rw [interp, if_neg ho]
    exact sum_window P x _
  simp only [hval]
  rw [oneDim, if_neg ho]
  dsimp only
  have hnone : (none : Option (List K)).getD ((offsets P x).map (P.ker mono)) =
      (offsets P x).map (P.ker mono) := rfl
  rw [locs_eq, hnone, hraw, hwin]
  have hx1 := Int.floor_le x
  have hx2 := Int.lt_floor_add_one x
  rw [← hfl] at hx1 hx2
  -- which surface is reached
  have hfirst : ((l0 : ℤ) : K) = pyInt x - P.halfwidth + 1 := by rw [hl0]; push_cast; ring
  have hlastc : ((l0 + n - 1 : ℤ) : K) = pyInt x + P.halfwidth := by
    rw [hl0, hn]; push_cast; ring
  have hhead : ∀ {f : Option K}, (∀ g, f = some g → ¬(l0 : K) < g) → ∀ w,
      foldLo f ((List.range n).map fun i : ℕ => l0 + i) w =
        .ok ((List.range n).map fun i : ℕ => l0 + i, [], w) :=
    fun h w => foldLo_not (P := P) (x := x) hw h w
  have htail : ∀ {f : Option K}, (∀ g, f = some g → ¬g < ((pyInt x + P.halfwidth : ℤ) : K)) → ∀ w,
      foldHi f ((List.range n).map fun i : ℕ => l0 + i) w =
        .ok ((List.range n).map fun i : ℕ => l0 + i, w, w) :=
    fun h w => foldHi_not (P := P) (x := x) hw h w
  by_cases hlo : ∃ f, S.lo = some f ∧ (l0 : K) < f
  · obtain ⟨f, hf, hlt⟩ := hlo
    obtain ⟨⟨z, hz⟩, hb, hle⟩ := hu.lo f hf
    have hmir : z - l0 < l0 + n := by
      have : (z : K) < ((2 * (pyInt x + 1) : ℤ) : K) := by
        rw [hz]; push_cast; linarith [hle, hx2]
      have : z < 2 * (pyInt x + 1) := by exact_mod_cast this
      omega
    obtain ⟨m, hm, cut, view, h1, h2, h3, h4⟩ := foldLo_range l0 n
      (fun i : ℕ => P.ker mono (((l0 + i : ℤ) : K) - x)) hz hb hlt hmir
    have hnohi : ∀ g, S.hi = some g → ¬g < ((pyInt x + P.halfwidth : ℤ) : K) := by
      intro g hg hlt'
      have := hu.wide f g hf hg
      push_cast at hlt'
      rw [hfirst] at hlt
      linarith
    have hno : ∀ g, S.hi = some g → ∀ i < n, ¬g < ((l0 + i : ℤ) : K) := by
      intro g hg i hi hlt'
      refine hnohi g hg (lt_of_lt_of_le hlt' ?_)
      have : l0 + (i : ℤ) ≤ pyInt x + P.halfwidth := by omega
      exact_mod_cast this
    have hdl : (((List.range n).map fun i : ℕ => l0 + i).drop m).getLast? =
        some (pyInt x + P.halfwidth) := by
      have := window_last (P := P) hw x
      rw [hwin] at this
      rw [List.getLast?_drop, if_neg (by simp; omega), this]
    have hfh : foldHi S.hi (((List.range n).map fun i : ℕ => l0 + i).drop m) view =
        .ok (((List.range n).map fun i : ℕ => l0 + i).drop m, view, view) := by
      cases hS : S.hi with
      | none => rfl
      | some f' =>
          simp only [foldHi, hdl]
          rw [if_neg (hnohi f' hS)]
    rw [hf, h1]
    dsimp only
    rw [hfh]
    refine ⟨_, _, _, rfl, fun g hg => ?_⟩
    rw [h4 g fun c hc => hg c (.inl (by rw [hf, hc]))]
    refine Finset.sum_congr rfl fun i hi => ?_
    rw [Finset.mem_range] at hi
    congr 1
    have hz2 : ⌊2 * f⌋ = z := by rw [← hz, Int.floor_intCast]
    simp only [odd, hf, Option.some.injEq, exists_eq_left', Option.getD_some, hz2]
    split_ifs with c1 c2
    · rfl
    · obtain ⟨f', hf', hlt'⟩ := c2
      exact absurd hlt' (hno f' hf' i hi)
    · rfl
  · have hnlo : ∀ g, S.lo = some g → ¬(l0 : K) < g := fun g hg h => hlo ⟨g, hg, h⟩
    rw [hhead hnlo]
    dsimp only
    have hno : ∀ i : ℕ, ¬∃ f, S.lo = some f ∧ ((l0 + i : ℤ) : K) < f := by
      rintro i ⟨f, hf, hlt⟩
      refine hnlo f hf (lt_of_le_of_lt ?_ hlt)
      push_cast
      linarith [Nat.cast_nonneg (α := K) i]
    by_cases hhi : ∃ f, S.hi = some f ∧ f < ((l0 + n - 1 : ℤ) : K)
    · obtain ⟨f, hf, hlt⟩ := hhi
      obtain ⟨⟨z, hz⟩, hb, hle⟩ := hu.hi f hf
      have hmir : l0 ≤ z - (l0 + n - 1) := by
        have : ((2 * pyInt x : ℤ) : K) < z := by
          rw [hz]; push_cast; linarith [hle, hx1]
        have : 2 * pyInt x < z := by exact_mod_cast this
        omega
      obtain ⟨p, hp, w, view, h1, h2, h3⟩ := foldHi_range l0 n
        (fun i : ℕ => P.ker mono (((l0 + i : ℤ) : K) - x)) hz hb hlt (by omega) hmir
      rw [hf, h1]
      refine ⟨_, _, _, rfl, fun g hg => ?_⟩
      rw [h3 g fun c hc => hg c (.inr (by rw [hf, hc]))]
      refine Finset.sum_congr rfl fun i hi => ?_
      congr 1
      have hz2 : ⌊2 * f⌋ = z := by rw [← hz, Int.floor_intCast]
      rw [odd, if_neg (hno i)]
      simp only [hf, Option.some.injEq, exists_eq_left', Option.getD_some, hz2]
    · rw [htail fun g hg h => hhi ⟨g, hg, by rw [hlastc]; push_cast at h; exact h⟩]
      refine ⟨_, _, _, rfl, fun g hg => ?_⟩
      rw [zipWith_sum_range]
      refine Finset.sum_congr rfl fun i hi => ?_
      congr 1
      rw [Finset.mem_range] at hi
      rw [odd, if_neg (hno i), if_neg]
      rintro ⟨f, hf, hlt⟩
      refine hhi ⟨f, hf, lt_of_lt_of_le hlt ?_⟩
      have : l0 + (i : ℤ) ≤ l0 + n - 1 := by omega
      exact_mod_cast this

end Dw.Hicks
