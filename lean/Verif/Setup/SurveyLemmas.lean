import Mathlib.Tactic.Linarith
import Mathlib.Tactic.Ring
import Mathlib.Tactic.SplitIfs
import Verif.Setup.Survey

/-!
# Lemmas on the survey functions
-/

namespace Dw.Setup

variable {d : ℕ}

theorem firstErr_ok {l : List (Except PyErr Unit)} : firstErr l = .ok () ↔ ∀ x ∈ l, x = .ok () := by
  induction l with
  | nil => simp [firstErr]
  | cons x xs ih =>
      cases x with
      | error e => simp [firstErr]
      | ok u => simp [firstErr, ih]

theorem raiseIf_ok {c : Prop} [Decidable c] {e : PyErr} : raiseIf c e = .ok () ↔ ¬c := by
  unfold raiseIf
  split_ifs with h <;> simp [h]

theorem forDims_ok {α : Type*} : ∀ {d : ℕ} {f : Fin d → Except PyErr α} {g : Fin d → α},
    forDims f = .ok g ↔ ∀ k, f k = .ok (g k)
  | 0, f, g => by
      simp only [forDims, IsEmpty.forall_iff, iff_true]
      congr
      funext k; exact k.elim0
  | d + 1, f, g => by
      rw [forDims]
      rw [Fin.forall_fin_succ]
      cases h0 : f 0 with
      | error e => simp
      | ok a =>
          simp only
          cases h1 : forDims fun k => f k.succ with
          | error e =>
              simp only [reduceCtorEq, Except.ok.injEq, false_iff, not_and]
              intro _ hk
              rw [(forDims_ok (f := fun k => f k.succ) (g := fun k => g k.succ)).2 hk] at h1
              cases h1
          | ok g' =>
              have := (forDims_ok (f := fun k => f k.succ) (g := g')).1 h1
              simp only [Except.ok.injEq, this]
              constructor
              · rintro rfl; simp
              · rintro ⟨rfl, h⟩
                funext k
                refine Fin.cases ?_ (fun j => ?_) k
                · simp
                · simpa using h j

theorem foldl_min_le (l : List ℚ) (x : ℚ) : l.foldl min x ≤ x ∧ ∀ y ∈ l, l.foldl min x ≤ y := by
  induction l generalizing x with
  | nil => simp
  | cons a l ih =>
      have := ih (min x a)
      simp only [List.foldl_cons, List.mem_cons, forall_eq_or_imp]
      exact ⟨this.1.trans (min_le_left _ _), this.1.trans (min_le_right _ _), this.2⟩

theorem foldl_min_mem (l : List ℚ) (x : ℚ) : l.foldl min x = x ∨ l.foldl min x ∈ l := by
  induction l generalizing x with
  | nil => simp
  | cons a l ih =>
      simp only [List.foldl_cons, List.mem_cons]
      rcases ih (min x a) with h | h
      · rw [h]
        rcases min_choice x a with h' | h' <;> simp [h']
      · exact .inr (.inr h)

theorem foldl_le_max (l : List ℚ) (x : ℚ) : x ≤ l.foldl max x ∧ ∀ y ∈ l, y ≤ l.foldl max x := by
  induction l generalizing x with
  | nil => simp
  | cons a l ih =>
      have := ih (max x a)
      simp only [List.foldl_cons, List.mem_cons, forall_eq_or_imp]
      exact ⟨(le_max_left _ _).trans this.1, (le_max_right _ _).trans this.1, this.2⟩

theorem foldl_max_mem (l : List ℚ) (x : ℚ) : l.foldl max x = x ∨ l.foldl max x ∈ l := by
  induction l generalizing x with
  | nil => simp
  | cons a l ih =>
      simp only [List.foldl_cons, List.mem_cons]
      rcases ih (max x a) with h | h
      · rw [h]
        rcases max_choice x a with h' | h' <;> simp [h']
      · exact .inr (.inr h)

theorem minOf_le {l : List ℚ} {x : ℚ} (h : x ∈ l) : minOf l ≤ x := by
  cases l with
  | nil => simp at h
  | cons a l =>
      rcases List.mem_cons.1 h with rfl | h
      · exact (foldl_min_le l _).1
      · exact (foldl_min_le l a).2 x h

theorem le_maxOf {l : List ℚ} {x : ℚ} (h : x ∈ l) : x ≤ maxOf l := by
  cases l with
  | nil => simp at h
  | cons a l =>
      rcases List.mem_cons.1 h with rfl | h
      · exact (foldl_le_max l _).1
      · exact (foldl_le_max l a).2 x h

theorem minOf_mem {l : List ℚ} (h : l ≠ []) : minOf l ∈ l := by
  cases l with
  | nil => exact absurd rfl h
  | cons a l =>
      rcases foldl_min_mem l a with h | h
      · rw [minOf, h]; exact List.mem_cons_self
      · exact List.mem_cons_of_mem _ h

theorem maxOf_mem {l : List ℚ} (h : l ≠ []) : maxOf l ∈ l := by
  cases l with
  | nil => exact absurd rfl h
  | cons a l =>
      rcases foldl_max_mem l a with h | h
      · rw [maxOf, h]; exact List.mem_cons_self
      · exact List.mem_cons_of_mem _ h

theorem LocT.mem_active {l : LocT} {k : ℕ} {x : ℚ} :
    x ∈ l.active k ↔ ∃ s < l.nb, ∃ i < l.n, l.val s i k = x ∧ x ≠ (ignoreLocation : ℚ) := by
  unfold LocT.active
  simp only [List.mem_filter, List.mem_flatMap, List.mem_range, List.mem_map, decide_eq_true_eq]
  constructor
  · rintro ⟨⟨s, hs, i, hi, h⟩, hx⟩
    exact ⟨s, hs, i, hi, h, hx⟩
  · rintro ⟨s, hs, i, hi, h, hx⟩
    exact ⟨⟨s, hs, i, hi, h⟩, hx⟩

theorem trunc_mono {x y : ℚ} (h : x ≤ y) : trunc x ≤ trunc y := by
  unfold trunc
  split_ifs with h1 h2 h2
  · exact Int.floor_mono h
  · exact absurd (h1.trans h) h2
  · have : ⌈x⌉ ≤ 0 := Int.ceil_le.2 (by push_cast; linarith)
    have : 0 ≤ ⌊y⌋ := Int.floor_nonneg.2 h2
    omega
  · exact Int.ceil_mono h

theorem trunc_int (z : ℤ) : trunc (z : ℚ) = z := by
  unfold trunc
  split_ifs <;> simp

theorem trunc_lt {x : ℚ} {n : ℤ} (h0 : 0 ≤ x) (h : x < n) : 0 ≤ trunc x ∧ trunc x < n := by
  unfold trunc
  rw [if_pos h0]
  exact ⟨Int.floor_nonneg.2 h0, Int.floor_lt.2 h⟩

theorem le_trunc {x : ℚ} {n : ℤ} (h0 : 0 ≤ n) (h : (n : ℚ) ≤ x) : n ≤ trunc x := by
  have : (0 : ℚ) ≤ x := le_trans (by exact_mod_cast h0) h
  unfold trunc
  rw [if_pos this]
  exact Int.le_floor.2 h

/-- All active coordinates of a dimension are in the model. -/
def InModel (locs : List (Option LocT)) (k : ℕ) (n : ℤ) : Prop :=
  ∀ l, some l ∈ locs → ∀ x ∈ l.active k, 0 ≤ x ∧ x < n

theorem extremeLoop_left {pad : ℤ} {k : ℕ} {n : ℤ} : ∀ {locs : List (Option LocT)} {e r : ℤ},
    extremeLoop true pad k n locs e = .ok r →
    InModel locs k n ∧ r ≤ e ∧ (∀ l, some l ∈ locs → ∀ x ∈ l.active k, r ≤ trunc x - pad) ∧
    (r = e ∨ ∃ l, some l ∈ locs ∧ ∃ x ∈ l.active k, r = trunc x - pad)
  | [], e, r, h => by
      simp only [extremeLoop, Except.ok.injEq] at h
      subst h
      refine ⟨fun l hl => by simp at hl, le_rfl, fun l hl => by simp at hl, .inl rfl⟩
  | none :: ls, e, r, h => by
      obtain ⟨h1, h2, h3, h4⟩ := extremeLoop_left (locs := ls) h
      refine ⟨fun l hl => h1 l (by simpa using hl), h2, fun l hl => h3 l (by simpa using hl), ?_⟩
      rcases h4 with h4 | ⟨l, hl, hx⟩
      · exact .inl h4
      · exact .inr ⟨l, List.mem_cons_of_mem _ hl, hx⟩
  | some l :: ls, e, r, h => by
      rw [extremeLoop] at h
      split_ifs at h with hnd hemp hmin hmax
      · obtain ⟨h1, h2, h3, h4⟩ := extremeLoop_left (locs := ls) h
        have he : l.active k = [] := by simpa using hemp
        refine ⟨fun l' hl => ?_, h2, fun l' hl => ?_, ?_⟩
        · rcases List.mem_cons.1 hl with hl | hl
          · cases hl; rw [he]; simp
          · exact h1 l' hl
        · rcases List.mem_cons.1 hl with hl | hl
          · cases hl; rw [he]; simp
          · exact h3 l' hl
        · rcases h4 with h4 | ⟨l, hl, hx⟩
          · exact .inl h4
          · exact .inr ⟨l, List.mem_cons_of_mem _ hl, hx⟩
      · obtain ⟨h1, h2, h3, h4⟩ := extremeLoop_left (locs := ls) h
        have he : l.active k ≠ [] := by simpa using hemp
        refine ⟨fun l' hl => ?_, h2.trans (min_le_left _ _), fun l' hl => ?_, ?_⟩
        · rcases List.mem_cons.1 hl with hl | hl
          · cases hl
            intro x hx
            exact ⟨(not_lt.1 hmin).trans (minOf_le hx), (le_maxOf hx).trans_lt (not_le.1 hmax)⟩
          · exact h1 l' hl
        · rcases List.mem_cons.1 hl with hl | hl
          · cases hl
            intro x hx
            have := trunc_mono (minOf_le hx)
            have := h2.trans (min_le_right _ _)
            omega
          · exact h3 l' hl
        · rcases h4 with h4 | ⟨l', hl, hx⟩
          · rcases min_choice e (trunc (minOf (l.active k)) - pad) with h5 | h5
            · exact .inl (h4.trans h5)
            · exact .inr ⟨l, List.mem_cons_self, _, minOf_mem he, h4.trans h5⟩
          · exact .inr ⟨l', List.mem_cons_of_mem _ hl, hx⟩
      · simp at *

theorem extremeLoop_right {pad : ℤ} {k : ℕ} {n : ℤ} : ∀ {locs : List (Option LocT)} {e r : ℤ},
    extremeLoop false pad k n locs e = .ok r →
    InModel locs k n ∧ e ≤ r ∧ (∀ l, some l ∈ locs → ∀ x ∈ l.active k, trunc x + pad ≤ r) ∧
    (r = e ∨ ∃ l, some l ∈ locs ∧ ∃ x ∈ l.active k, r = trunc x + pad)
  | [], e, r, h => by
      simp only [extremeLoop, Except.ok.injEq] at h
      subst h
      refine ⟨fun l hl => by simp at hl, le_rfl, fun l hl => by simp at hl, .inl rfl⟩
  | none :: ls, e, r, h => by
      obtain ⟨h1, h2, h3, h4⟩ := extremeLoop_right (locs := ls) h
      refine ⟨fun l hl => h1 l (by simpa using hl), h2, fun l hl => h3 l (by simpa using hl), ?_⟩
      rcases h4 with h4 | ⟨l, hl, hx⟩
      · exact .inl h4
      · exact .inr ⟨l, List.mem_cons_of_mem _ hl, hx⟩
  | some l :: ls, e, r, h => by
      rw [extremeLoop] at h
      split_ifs at h with hnd hemp hmin hmax
      · obtain ⟨h1, h2, h3, h4⟩ := extremeLoop_right (locs := ls) h
        have he : l.active k = [] := by simpa using hemp
        refine ⟨fun l' hl => ?_, h2, fun l' hl => ?_, ?_⟩
        · rcases List.mem_cons.1 hl with hl | hl
          · cases hl; rw [he]; simp
          · exact h1 l' hl
        · rcases List.mem_cons.1 hl with hl | hl
          · cases hl; rw [he]; simp
          · exact h3 l' hl
        · rcases h4 with h4 | ⟨l, hl, hx⟩
          · exact .inl h4
          · exact .inr ⟨l, List.mem_cons_of_mem _ hl, hx⟩
      · simp at *
      · obtain ⟨h1, h2, h3, h4⟩ := extremeLoop_right (locs := ls) h
        have he : l.active k ≠ [] := by simpa using hemp
        refine ⟨fun l' hl => ?_, (le_max_left _ _).trans h2, fun l' hl => ?_, ?_⟩
        · rcases List.mem_cons.1 hl with hl | hl
          · cases hl
            intro x hx
            exact ⟨(not_lt.1 hmin).trans (minOf_le hx), (le_maxOf hx).trans_lt (not_le.1 hmax)⟩
          · exact h1 l' hl
        · rcases List.mem_cons.1 hl with hl | hl
          · cases hl
            intro x hx
            have := trunc_mono (le_maxOf hx)
            have := (le_max_right _ _).trans h2
            omega
          · exact h3 l' hl
        · rcases h4 with h4 | ⟨l', hl, hx⟩
          · rcases max_choice e (trunc (maxOf (l.active k)) + pad) with h5 | h5
            · exact .inl (h4.trans h5)
            · exact .inr ⟨l, List.mem_cons_self, _, maxOf_mem he, h4.trans h5⟩
          · exact .inr ⟨l', List.mem_cons_of_mem _ hl, hx⟩

/-! ### Row-major indices -/

/-- Position of cell `c` in an array of shape `s` stored in C order. -/
def rowMajor : {d : ℕ} → (Fin d → ℤ) → (Fin d → ℤ) → ℤ
  | 0, _, _ => 0
  | d + 1, s, c => rowMajor (fun k : Fin d => s k.castSucc) (fun k => c k.castSucc) * s (Fin.last d)
      + c (Fin.last d)

/-- `c` is a cell of an array of shape `s`. -/
def InShape (s c : Fin d → ℤ) : Prop := ∀ k, 0 ≤ c k ∧ c k < s k

theorem strideFrom_succ (s : Fin (d + 1) → ℤ) : ∀ m, m < d →
    strideFrom s (m + 1) = strideFrom (fun k : Fin d => s k.castSucc) m * s (Fin.last d)
  | 0, hd => by
      simp only [strideFrom, one_mul]
      rw [dif_pos (by omega)]
      congr 1
  | m + 1, hm => by
      rw [strideFrom, strideFrom_succ s m (by omega), strideFrom]
      rw [dif_pos (by omega), dif_pos (by omega)]
      have : (⟨d + 1 - 1 - (m + 1), by omega⟩ : Fin (d + 1)) =
          Fin.castSucc ⟨d - 1 - m, by omega⟩ := by
        ext; simp; omega
      rw [this]
      ring

theorem sum_stride : ∀ {d : ℕ} (s c : Fin d → ℤ), ∑ k, c k * stride s k = rowMajor s c
  | 0, s, c => by simp [rowMajor]
  | d + 1, s, c => by
      rw [Fin.sum_univ_castSucc, rowMajor, ← sum_stride]
      congr 1
      · rw [Finset.sum_mul]
        refine Finset.sum_congr rfl fun k _ => ?_
        unfold stride
        have e : d + 1 - 1 - (k.castSucc : Fin (d + 1)).val = (d - 1 - k.val) + 1 := by
          have := k.isLt
          simp only [Fin.val_castSucc]
          omega
        rw [e, strideFrom_succ s _ (by have := k.isLt; omega)]
        ring
      · unfold stride
        simp [strideFrom]

theorem rowMajor_bound : ∀ {d : ℕ} {s c : Fin d → ℤ}, InShape s c →
    0 ≤ rowMajor s c ∧ rowMajor s c < ∏ k, s k
  | 0, s, c, _ => by simp [rowMajor]
  | d + 1, s, c, h => by
      have ih := rowMajor_bound (s := fun k : Fin d => s k.castSucc) (c := fun k => c k.castSucc)
        fun k => h k.castSucc
      have hl := h (Fin.last d)
      rw [rowMajor, Fin.prod_univ_castSucc]
      constructor
      · have := mul_nonneg ih.1 (hl.1.trans hl.2.le)
        omega
      · have : (rowMajor (fun k : Fin d => s k.castSucc) (fun k => c k.castSucc) + 1) * s (Fin.last d)
            ≤ (∏ k : Fin d, s k.castSucc) * s (Fin.last d) :=
          mul_le_mul_of_nonneg_right (by omega) (hl.1.trans hl.2.le)
        linarith

theorem rowMajor_inj : ∀ {d : ℕ} {s c c' : Fin d → ℤ}, InShape s c → InShape s c' →
    rowMajor s c = rowMajor s c' → c = c'
  | 0, s, c, c', _, _, _ => by funext k; exact k.elim0
  | d + 1, s, c, c', h, h', e => by
      have hl := h (Fin.last d)
      have hl' := h' (Fin.last d)
      simp only [rowMajor] at e
      have key : ∀ {q q' r r' n : ℤ}, 0 ≤ r → r < n → 0 ≤ r' → r' < n → q * n + r = q' * n + r' →
          q = q' ∧ r = r' := by
        intro q q' r r' n h1 h2 h3 h4 h5
        have hn : 0 < n := by omega
        have hq : q = q' := by
          by_contra hne
          rcases lt_or_gt_of_ne hne with hlt | hlt
          · have : (q + 1) * n ≤ q' * n := mul_le_mul_of_nonneg_right (by omega) hn.le
            nlinarith
          · have : (q' + 1) * n ≤ q * n := mul_le_mul_of_nonneg_right (by omega) hn.le
            nlinarith
        subst hq
        exact ⟨rfl, by omega⟩
      obtain ⟨e1, e2⟩ := key hl.1 hl.2 hl'.1 hl'.2 e
      have := rowMajor_inj (fun k => h k.castSucc) (fun k => h' k.castSucc) e1
      funext k
      refine Fin.lastCases e2 (fun j => ?_) k
      exact congrFun this j

end Dw.Setup
