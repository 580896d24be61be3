import Verif.Setup.Distinct
import Verif.Setup.AutogradShot

/-!
# Gradients of models that are shared by the shots

The model of shot `s` is block `s` of a batched model, and block 0 of one that is shared.  The gradient of a block
is the sum over the shots that use it.
-/

namespace Dw.Setup

open Scalar

theorem bind_okay {ε α β : Type} {x : Except ε α} {r : α} {f : α → Except ε β} {y : Except ε β} (h1 : x = .ok r)
    (h2 : f r = y) : (x >>= f) = y := by
  rw [h1]
  exact h2

section
variable {M : Type*} [AddCommMonoid M] {n : ℕ}

theorem sum_if_neg {q : Prop} [Decidable q] (hq : ¬q) (c : Fin n → Prop) [DecidablePred c] (x y : Fin n → ℝ) :
    (∑ s, if c s then (if q then x s else y s) else 0) = ∑ s, if c s then y s else 0 := by
  simp only [if_neg hq]

theorem map_blocks (T : M → ℝ) (h0 : T 0 = 0) (hT : ∀ x y, T (x + y) = T x + T y) (c : Fin n → Prop)
    [DecidablePred c] (X : Fin n → M) : T (∑ s, if c s then X s else 0) = ∑ s, if c s then T (X s) else 0 := by
  have := map_sum (⟨⟨T, h0⟩, hT⟩ : M →+ ℝ) (fun s => if c s then X s else 0) Finset.univ
  refine this.trans (Finset.sum_congr rfl fun s _ => ?_)
  show T (if c s then X s else 0) = _
  split_ifs
  · rfl
  · exact h0

/-- A linear operation on the blocks. -/
theorem blk_sum (b : Bool) (T : ℕ → M → ℝ) (h0 : ∀ s, T s 0 = 0) (hT : ∀ s x y, T s (x + y) = T s x + T s y)
    (hsh : b = false → ∀ s < n, T s = T 0) (X : Fin n → M) (j : ℕ) :
    T j (∑ s : Fin n, if (if b then (s : ℕ) else 0) = j then X s else 0) =
      ∑ s : Fin n, if (if b then (s : ℕ) else 0) = j then T s (X s) else 0 := by
  rw [map_blocks (T j) (h0 j) (hT j)]
  refine Finset.sum_congr rfl fun s _ => ?_
  by_cases h : (if b then (s : ℕ) else 0) = j
  · rw [if_pos h, if_pos h, ← h]
    cases b with
    | true => rfl
    | false => rw [if_neg Bool.false_ne_true, hsh rfl s s.isLt]
  · rw [if_neg h, if_neg h]

/-- A linear operation on the blocks of a parameter that depends on a model, from the blocks of the parameter (`k`
says whether it is batched) to those of the model (`v`). -/
theorem blocks_sum (k v : Bool) (hk : v = true → k = true) (T : ℕ → M → ℝ) (h0 : ∀ s, T s 0 = 0)
    (hT : ∀ s x y, T s (x + y) = T s x + T s y) (hsh : k = false → ∀ s < n, T s = T 0) (X : Fin n → M) (j : ℕ) :
    (∑ β ∈ Finset.range (if k then n else 1), if (if v then β else 0) = j then
      T β (∑ s : Fin n, if (if k then (s : ℕ) else 0) = β then X s else 0) else 0) =
      ∑ s : Fin n, if (if v then (s : ℕ) else 0) = j then T s (X s) else 0 := by
  have e : ∀ β, (if (if v then β else 0) = j then
      T β (∑ s : Fin n, if (if k then (s : ℕ) else 0) = β then X s else 0) else 0) =
      ∑ s : Fin n, if (if k then (s : ℕ) else 0) = β then (if (if v then β else 0) = j then T s (X s) else 0) else 0 := by
    intro β
    rw [blk_sum k T h0 hT hsh X β]
    split_ifs <;> simp
  rw [Finset.sum_congr rfl fun β _ => e β, Finset.sum_comm]
  refine Finset.sum_congr rfl fun s _ => ?_
  rw [Finset.sum_ite_eq, if_pos]
  · cases k with
    | true => rfl
    | false =>
        cases v with
        | true => exact absurd (hk rfl) Bool.false_ne_true
        | false => rfl
  · rw [Finset.mem_range]
    cases k with
    | true => exact s.isLt
    | false => exact Nat.one_pos

end

variable {d : ℕ}

variable {A : SetupArgs d} {P : Plan d}

theorem rcv_distinct (h : A.Good P) {s : ℕ} (hs : s < P.nb) (tt : Bool) {j : ℕ} {o : Option LocT}
    (ho : A.rcvs[j]? = some o) (hw : ∀ l, o = some l → WholeIgnored d l s) {i i' : ℕ} {c : Cell d}
    (e : ((shotIn A P tt s).rcv j).getD i none = some c) (e' : ((shotIn A P tt s).rcv j).getD i' none = some c) :
    i = i' := by
  have hp := rcv_placed h hs tt ho hw
  have key : ∀ i, ((shotIn A P tt s).rcv j).getD i none = some c → i < locCount o ∧ (locCell o s i).map P.at = some c := by
    intro i e
    by_cases hi : i < ((shotIn A P tt s).rcv j).length
    · rw [List.getD_eq_getElem?_getD, List.getElem?_eq_getElem hi] at e
      exact ⟨hi.trans_eq hp.length, (hp.get ⟨i, hi⟩).symm.trans e⟩
    · rw [List.getD_eq_getElem?_getD, List.getElem?_eq_none (not_lt.1 hi)] at e
      cases e
  obtain ⟨h1, h2⟩ := key i e
  obtain ⟨h3, h4⟩ := key i' e'
  obtain ⟨x, hx, rfl⟩ := Option.map_eq_some_iff.1 h2
  obtain ⟨y, hy, e5⟩ := Option.map_eq_some_iff.1 h4
  obtain rfl := Plan.at_inj.1 e5
  exact locCell_inj h hs (List.mem_append_right _ (List.mem_of_getElem? ho)) hw h1 h3 hx hy

/-- Which block of a model a shot uses. -/
theorem batched_iff (h : A.Good P) (hnb : 0 < P.nb) {j : ℕ} {m : ModelT d ℝ × PadMode}
    (hj : A.models[j]? = some m) : P.batched j = decide (1 < m.1.nb.getD 1) ∧
      ∀ s : ℕ, (if m.1.nb.getD 1 = 1 then 0 else s) = if P.batched j then s else 0 := by
  obtain ⟨hm, e⟩ := (extractModels_iff hnb).1 h.models
  have hb := (hm m (List.mem_of_getElem? hj)).batch
  have e1 : P.batched j = decide (1 < m.1.nb.getD 1) := by
    unfold Plan.batched
    rw [e, List.getD_eq_getElem?_getD, List.getElem?_map, hj]
    rfl
  refine ⟨e1, fun s => ?_⟩
  rw [e1]
  by_cases h1 : m.1.nb.getD 1 = 1
  · rw [if_pos h1, if_neg (by simp [h1])]
  · rw [if_neg h1, if_pos (by simp; omega)]

theorem shotsT_eq (h : A.Good P) (hnb : 0 < P.nb) {j : ℕ} {m : ModelT d ℝ × PadMode}
    (hj : A.models[j]? = some m) (g : ℕ → Fld d ℝ) (β : ℕ) (c : Cell d) :
    shotsT m.1.nb P.nb g β c = ∑ s : Fin P.nb, if (if P.batched j then (s : ℕ) else 0) = β then g s c else 0 := by
  unfold shotsT
  simp only [(batched_iff h hnb hj).2]
  exact (Fin.sum_univ_eq_sum_range (fun s => if (if P.batched j then s else 0) = β then g s c else 0) _).symm

end Dw.Setup
