import Verif.Hicks.Model
import Mathlib.Tactic.Ring
import Mathlib.Tactic.Linarith
import Mathlib.Algebra.BigOperators.Ring.Finset
import Mathlib.Algebra.BigOperators.Group.List.Lemmas

/-!
# Lemmas on the model of `location_interpolation.py`
-/

namespace Dw.Hicks

variable {K : Type*} [Field K] [LinearOrder K] [FloorRing K]

/-! ### Indices of distinct locations -/

theorem indexAll_spec (ls : List (ℤ × ℤ)) : ∀ dict : List (ℤ × ℤ), dict.Nodup →
    dict <+: (indexAll dict ls).1 ∧ (indexAll dict ls).1.Nodup ∧
      List.Forall₂ (fun j l => (indexAll dict ls).1[j]? = some l) (indexAll dict ls).2 ls ∧
      ∀ l, l ∈ (indexAll dict ls).1 ↔ l ∈ dict ∨ l ∈ ls := by
  induction ls with
  | nil => intro dict hd; simp [indexAll, hd]
  | cons l ls ih =>
      intro dict hd
      by_cases h : l ∈ dict
      · obtain ⟨h1, h2, h3, h4⟩ := ih dict hd
        simp only [indexAll, if_pos h]
        refine ⟨h1, h2, .cons ?_ h3, fun x => ?_⟩
        · obtain ⟨t, ht⟩ := h1
          rw [← ht, List.getElem?_append_left (List.idxOf_lt_length_of_mem h)]
          exact List.getElem?_idxOf h
        · rw [h4, List.mem_cons]
          constructor
          · rintro (h | h) <;> simp [h]
          · rintro (h' | rfl | h') <;> simp_all
      · have hd' : (dict ++ [l]).Nodup := by
          rw [List.nodup_append]
          refine ⟨hd, by simp, fun a ha b hb => ?_⟩
          rw [List.mem_singleton] at hb
          rintro rfl
          exact h (hb ▸ ha)
        obtain ⟨h1, h2, h3, h4⟩ := ih _ hd'
        simp only [indexAll, if_neg h]
        refine ⟨(List.prefix_append _ _).trans h1, h2, .cons ?_ h3, fun x => ?_⟩
        · obtain ⟨t, ht⟩ := h1
          rw [← ht]
          simp
        · rw [h4, List.mem_cons, List.mem_append, List.mem_singleton]
          tauto

/-! ### `out[idxs] += vals` -/

omit [LinearOrder K] [FloorRing K] in
theorem fancyAdd_eq (idxs : List ℕ) (hn : idxs.Nodup) (vals : List K) (out : ℕ → K) (j : ℕ) :
    fancyAdd out idxs vals j =
      out j + ((idxs.zip vals).map fun iv => if iv.1 = j then iv.2 else 0).sum := by
  have key : ∀ (l : List (ℕ × K)) (o : ℕ → K), (l.map Prod.fst).Nodup →
      l.foldl (fun o iv => Function.update o iv.1 (out iv.1 + iv.2)) o j =
        if j ∈ l.map Prod.fst then out j + (l.map fun iv => if iv.1 = j then iv.2 else 0).sum
        else o j := by
    intro l
    induction l with
    | nil => intro o _; simp
    | cons a l ih =>
        intro o hn
        rw [List.map_cons, List.nodup_cons] at hn
        rw [List.foldl_cons, ih _ hn.2]
        by_cases hj : j ∈ l.map Prod.fst
        · have ha : a.1 ≠ j := fun e => hn.1 (e ▸ hj)
          simp [hj, ha]
        · rw [if_neg hj]
          by_cases ha : a.1 = j
          · have hz : (l.map fun iv : ℕ × K => if iv.1 = j then iv.2 else 0) = l.map fun _ => 0 := by
              refine List.map_congr_left fun iv hiv => if_neg fun e => hj ?_
              exact e ▸ List.mem_map_of_mem hiv
            rw [List.map_cons, List.map_cons, List.sum_cons, hz]
            subst ha
            simp
          · rw [Function.update_of_ne (Ne.symm ha), if_neg]
            simp only [List.map_cons, List.mem_cons, not_or]
            exact ⟨Ne.symm ha, hj⟩
  have hz : ((idxs.zip vals).map Prod.fst).Nodup := by
    refine hn.sublist ?_
    clear key
    induction idxs generalizing vals with
    | nil => simp
    | cons a l ih => cases vals <;> simp_all [List.nodup_cons]
  rw [fancyAdd, key _ _ hz]
  split_ifs with hj
  · rfl
  · have hz : ((idxs.zip vals).map fun iv : ℕ × K => if iv.1 = j then iv.2 else 0) =
        (idxs.zip vals).map fun _ => 0 := by
      refine List.map_congr_left fun iv hiv => if_neg fun e => hj ?_
      exact e ▸ List.mem_map_of_mem hiv
    rw [hz]
    simp

/-! ### One dimension -/

section
variable [IsStrictOrderedRing K]

theorem pyInt_intCast (z : ℤ) : pyInt (z : K) = z := by
  simp [pyInt]

/-- The cells of the window. -/
def window (P : Params K) (x : K) : List ℤ :=
  (List.range (2 * P.halfwidth)).map fun i : ℕ => pyInt x - P.halfwidth + 1 + i

theorem locs_eq (P : Params K) (x : K) :
    ((offsets P x).map fun y => pyInt (x + y)) = window P x := by
  rw [offsets, window, List.map_map]
  refine List.map_congr_left fun i _ => ?_
  rw [Function.comp_apply, ← pyInt_intCast (K := K) (pyInt x - P.halfwidth + 1 + i)]
  congr 1
  push_cast
  ring

omit [IsStrictOrderedRing K] in
theorem window_nodup (P : Params K) (x : K) : (window P x).Nodup :=
  List.nodup_range.map fun i j h => by simpa using h

omit [IsStrictOrderedRing K] in
theorem window_length (P : Params K) (x : K) : (window P x).length = 2 * P.halfwidth := by
  simp [window]

omit [IsStrictOrderedRing K] in
theorem mem_window (P : Params K) (x : K) (c : ℤ) :
    c ∈ window P x ↔ pyInt x - P.halfwidth < c ∧ c ≤ pyInt x + P.halfwidth := by
  simp only [window, List.mem_map, List.mem_range]
  constructor
  · rintro ⟨i, hi, rfl⟩; omega
  · rintro ⟨h1, h2⟩
    exact ⟨(c - (pyInt x - P.halfwidth + 1)).toNat, by omega, by omega⟩

omit [LinearOrder K] [FloorRing K] [IsStrictOrderedRing K] in
theorem subSlice_length {w : List K} {s e : ℤ} {y w' : List K} (h : subSlice w s e y = .ok w') :
    w'.length = w.length := by
  have hb : ∀ i, bound w.length i ≤ w.length ∨ i < 0 := by
    intro i
    by_cases hi : i < 0
    · exact .inr hi
    · left; simp only [bound, if_neg hi]; omega
  have hb' : ∀ i, bound w.length i ≤ w.length := by
    intro i
    simp only [bound]
    split_ifs <;> omega
  have h1 := hb' s
  have h2 := hb' e
  simp only [subSlice] at h
  split_ifs at h with c1 c2
  · obtain rfl := Except.ok.inj h
    simp
    omega
  · obtain rfl := Except.ok.inj h
    simp
    omega

omit [IsStrictOrderedRing K] in
theorem foldLo_length {f : Option K} {l : List ℤ} {w : List K} {r : List ℤ × List K × List K}
    (h : foldLo f l w = .ok r) (hl : l.length = w.length) :
    r.1.length = r.2.2.length ∧ r.2.1.length + r.2.2.length = w.length ∧ r.1 <:+ l := by
  cases f with
  | none =>
      simp only [foldLo] at h
      obtain rfl := Except.ok.inj h
      simp [hl]
  | some f =>
      cases l with
      | nil => simp [foldLo] at h
      | cons a l =>
          simp only [foldLo] at h
          by_cases hc : (a : K) < f
          · rw [if_pos hc] at h
            split at h
            · cases h
            · next w' hw =>
              obtain rfl := Except.ok.inj h
              have hlen := subSlice_length hw
              refine ⟨?_, ?_, List.drop_suffix _ _⟩
              · simp only [List.length_drop, hlen, hl]
              · simp only [List.length_drop, List.length_take, hlen]
                omega
          · rw [if_neg hc] at h
            obtain rfl := Except.ok.inj h
            exact ⟨hl, by simp, List.suffix_rfl⟩

omit [IsStrictOrderedRing K] in
theorem foldHi_length {f : Option K} {l : List ℤ} {w : List K} {r : List ℤ × List K × List K}
    (h : foldHi f l w = .ok r) (hl : l.length = w.length) :
    r.1.length = r.2.1.length ∧ r.2.2.length = w.length ∧ r.1 <+: l := by
  cases f with
  | none =>
      simp only [foldHi] at h
      obtain rfl := Except.ok.inj h
      simp [hl]
  | some f =>
      rcases hg : l.getLast? with _ | a
      · simp [foldHi, hg] at h
      · simp only [foldHi, hg] at h
        by_cases hc : f < (a : K)
        · rw [if_pos hc] at h
          split at h
          · cases h
          · next w' hw =>
            obtain rfl := Except.ok.inj h
            have hlen := subSlice_length hw
            refine ⟨?_, hlen, List.take_prefix _ _⟩
            simp only [List.length_take, hlen, hl]
        · rw [if_neg hc] at h
          obtain rfl := Except.ok.inj h
          exact ⟨hl, rfl, List.prefix_rfl⟩

/-- All cached tensors have the length of a window. -/
def CacheLen (P : Params K) (cache : Cache K) : Prop :=
  ∀ k w, cache k = some w → w.length = 2 * P.halfwidth

theorem oneDim_shape {P : Params K} {cache : Cache K} {x : K} {S : Surf K} {mono : Bool}
    {r : Cache K × List ℤ × List K} (h : oneDim P cache x S mono = .ok r) (hc : CacheLen P cache) :
    CacheLen P r.1 ∧ r.2.1.Nodup ∧ r.2.1.length = r.2.2.length := by
  rw [oneDim] at h
  split_ifs at h with hg
  · obtain rfl := Except.ok.inj h
    simp [hc]
  · dsimp only at h
    rw [locs_eq] at h
    have hlen : (window P x).length =
        ((cache (key P x mono)).getD ((offsets P x).map (P.ker mono))).length := by
      rw [window_length]
      cases hk : cache (key P x mono) with
      | none => simp [offsets]
      | some w => simp [hc _ _ hk]
    split at h
    · cases h
    · next l1 cut w1 h1 =>
      obtain ⟨a1, a2, a3⟩ := foldLo_length h1 hlen
      split at h
      · cases h
      · next l2 w2 view h2 =>
        obtain ⟨b1, b2, b3⟩ := foldHi_length h2 a1
        obtain rfl := Except.ok.inj h
        refine ⟨?_, ?_, b1⟩
        · intro k w hk
          dsimp only at hk
          split_ifs at hk with hs
          · exact hc k w hk
          · by_cases hkk : k = key P x mono
            · subst hkk
              rw [Function.update_self] at hk
              obtain rfl := Option.some.inj hk
              rw [List.length_append, b2, a2, ← hlen, window_length]
            · rw [Function.update_of_ne hkk] at hk
              exact hc k w hk
        · exact ((window_nodup P x).sublist a3.sublist).sublist b3.sublist

/-! ### Shots -/

/-- The cells of a point are those of a product of two lists, found through its indices. -/
structure Shape (dict : List (ℤ × ℤ)) (o : PointOut K) (l0 l1 : List ℤ) : Prop where
  nodup0 : l0.Nodup
  nodup1 : l1.Nodup
  len0 : l0.length = o.w0.length
  len1 : l1.length = o.w1.length
  idxs : List.Forall₂ (fun j l => dict[j]? = some l) o.idxs (l0.product l1)

omit [Field K] [LinearOrder K] [FloorRing K] [IsStrictOrderedRing K] in
theorem Shape.mono {dict dict' : List (ℤ × ℤ)} {o : PointOut K} {l0 l1 : List ℤ}
    (h : Shape dict o l0 l1) (hp : dict <+: dict') : Shape dict' o l0 l1 :=
  { h with
    idxs := h.idxs.imp fun j l hj => by
      obtain ⟨t, rfl⟩ := hp
      obtain ⟨hlt, -⟩ := List.getElem?_eq_some_iff.1 hj
      rw [List.getElem?_append_left hlt, hj] }

/-- The indices and weights of a point come from two calls with some caches. -/
def Made (P : Params K) (S0 S1 : Surf K) (dict : List (ℤ × ℤ)) (p : Point K) (o : PointOut K) : Prop :=
  ∃ l0 l1, Shape dict o l0 l1 ∧
    (∃ c c', oneDim P c p.x S0 (p.mono || p.dim == 1) = .ok (c', l0, o.w0)) ∧
    ∃ c c', oneDim P c p.y S1 (p.mono || p.dim == 0) = .ok (c', l1, o.w1)

omit [IsStrictOrderedRing K] in
theorem Made.mono {P : Params K} {S0 S1 : Surf K} {dict dict' : List (ℤ × ℤ)} {p : Point K}
    {o : PointOut K} (h : Made P S0 S1 dict p o) (hp : dict <+: dict') : Made P S0 S1 dict' p o := by
  obtain ⟨l0, l1, h1, h2⟩ := h
  exact ⟨l0, l1, h1.mono hp, h2⟩

theorem shotLoop_spec {P : Params K} {S0 S1 : Surf K} (ps : List (Point K)) : ∀ {cache : Cache K}
    {dict : List (ℤ × ℤ)} {r : Cache K × List (ℤ × ℤ) × List (PointOut K)},
    shotLoop P S0 S1 cache dict ps = .ok r → CacheLen P cache → dict.Nodup →
    CacheLen P r.1 ∧ dict <+: r.2.1 ∧ r.2.1.Nodup ∧ List.Forall₂ (Made P S0 S1 r.2.1) ps r.2.2 := by
  induction ps with
  | nil =>
      intro cache dict r h hc hd
      obtain rfl := Except.ok.inj h
      exact ⟨hc, List.prefix_rfl, hd, .nil⟩
  | cons p ps ih =>
      intro cache dict r h hc hd
      rw [shotLoop] at h
      split at h
      · cases h
      · next c1 l0 w0 h0 =>
        obtain ⟨hc1, a1, a2⟩ := oneDim_shape h0 hc
        split at h
        · cases h
        · next c2 l1 w1 h1 =>
          obtain ⟨hc2, b1, b2⟩ := oneDim_shape h1 hc1
          obtain ⟨i1, i2, i3, -⟩ := indexAll_spec (l0.product l1) dict hd
          dsimp only at h
          split at h
          · cases h
          · next c3 dict' outs h3 =>
            obtain ⟨q1, q2, q3, q4⟩ := ih h3 hc2 i2
            obtain rfl := Except.ok.inj h
            exact ⟨q1, i1.trans q2, q3, .cons ⟨l0, l1, Shape.mono ⟨a1, b1, a2, b2, i3⟩ q2,
              ⟨_, _, h0⟩, _, _, h1⟩ q4⟩

theorem shots_spec {P : Params K} {S0 S1 : Surf K} (pss : List (List (Point K))) :
    ∀ {cache : Cache K} {H : List (Shot K)}, shots P S0 S1 cache pss = .ok H → CacheLen P cache →
    List.Forall₂ (fun ps s => s.locs.Nodup ∧ List.Forall₂ (Made P S0 S1 s.locs) ps s.outs) pss H := by
  induction pss with
  | nil =>
      intro cache H h _
      obtain rfl := Except.ok.inj h
      exact .nil
  | cons ps rest ih =>
      intro cache H h hc
      rw [shots] at h
      split at h
      · cases h
      · next c1 dict outs h1 =>
        obtain ⟨a1, -, a3, a4⟩ := shotLoop_spec ps h1 hc List.nodup_nil
        split at h
        · cases h
        · next r h2 =>
          obtain rfl := Except.ok.inj h
          exact .cons ⟨a3, a4⟩ (ih h2 a1)

end

/-! ### Source and receiver -/

omit [FloorRing K] [LinearOrder K] in
/-- The receiver value of a point is a weighted sum over the product of its two lists of cells. -/
theorem receiver_entry {dict : List (ℤ × ℤ)} {o : PointOut K} {l0 l1 : List ℤ}
    (h : List.Forall₂ (fun j l => dict[j]? = some l) o.idxs (l0.product l1))
    (h0 : l0.length = o.w0.length) (h1 : l1.length = o.w1.length) (rcd : ℕ → K) (u : ℤ × ℤ → K)
    (hu : ∀ j c, dict[j]? = some c → rcd j = u c) :
    (List.zipWith (fun j w => rcd j * w) o.idxs o.weights).sum =
      (List.zipWith (fun a w => w * (List.zipWith (fun b v => v * u (a, b)) l1 o.w1).sum) l0 o.w0).sum := by
  have e1 : ∀ (is : List ℕ) (ls : List (ℤ × ℤ)) (ws : List K),
      List.Forall₂ (fun j l => dict[j]? = some l) is ls →
      List.zipWith (fun j w => rcd j * w) is ws = List.zipWith (fun c w => w * u c) ls ws := by
    intro is ls ws h
    induction h generalizing ws with
    | nil => simp
    | cons hj _ ih =>
        cases ws with
        | nil => simp
        | cons w ws => rw [List.zipWith_cons_cons, List.zipWith_cons_cons, ih, hu _ _ hj, mul_comm]
  rw [e1 _ _ _ h, PointOut.weights]
  generalize o.w0 = w0 at h0
  clear h
  induction l0 generalizing w0 with
  | nil => simp [List.product]
  | cons a l0 ih =>
      cases w0 with
      | nil => simp at h0
      | cons w w0 =>
          have hp : (a :: l0).product l1 = l1.map (fun b => (a, b)) ++ l0.product l1 := rfl
          rw [hp, List.flatMap_cons, List.zipWith_append (by simp [h1]),
            List.sum_append, ih w0 (by simpa using h0), List.zipWith_cons_cons, List.sum_cons]
          congr 1
          rw [List.zipWith_map]
          generalize o.w1 = w1 at h1
          clear ih h0 hp
          induction l1 generalizing w1 with
          | nil => simp
          | cons b l1 ih =>
              cases w1 with
              | nil => simp at h1
              | cons v w1 =>
                  simp only [List.zipWith_cons_cons, List.sum_cons]
                  rw [ih w1 (by simpa using h1)]
                  ring

omit [Field K] [LinearOrder K] [FloorRing K] in
theorem nodup_of_forall₂ {dict : List (ℤ × ℤ)} {is : List ℕ} {ls : List (ℤ × ℤ)}
    (h : List.Forall₂ (fun j l => dict[j]? = some l) is ls) (hn : ls.Nodup) : is.Nodup := by
  induction h with
  | nil => exact List.nodup_nil
  | @cons j l is ls hj hr ih =>
      rw [List.nodup_cons] at hn ⊢
      refine ⟨fun hm => hn.1 ?_, ih hn.2⟩
      clear ih
      induction hr with
      | nil => simp at hm
      | @cons j' l' is ls hj' hr ih =>
          rw [List.nodup_cons] at hn
          rcases List.mem_cons.1 hm with rfl | hm
          · rw [hj] at hj'
            exact Option.some.inj hj' ▸ List.mem_cons_self
          · exact List.mem_cons_of_mem _
              (ih ⟨fun h => hn.1 (List.mem_cons_of_mem _ h), hn.2.2⟩ hm)

omit [Field K] [LinearOrder K] [FloorRing K] in
theorem Shape.idxs_nodup {dict : List (ℤ × ℤ)} {o : PointOut K} {l0 l1 : List ℤ}
    (h : Shape dict o l0 l1) : o.idxs.Nodup :=
  nodup_of_forall₂ h.idxs (h.nodup0.product h.nodup1)

omit [Field K] [LinearOrder K] [FloorRing K] in
theorem Shape.idxs_lt {dict : List (ℤ × ℤ)} {o : PointOut K} {l0 l1 : List ℤ}
    (h : Shape dict o l0 l1) : ∀ j ∈ o.idxs, j < dict.length := by
  have := h.idxs
  generalize o.idxs = is at this
  generalize l0.product l1 = ls at this
  induction this with
  | nil => simp
  | cons hj _ ih =>
      intro i hi
      rcases List.mem_cons.1 hi with rfl | hi
      · exact (List.getElem?_eq_some_iff.1 hj).1
      · exact ih i hi

omit [LinearOrder K] [FloorRing K] in
theorem source_eq (s : Shot K) (hs : ∀ o ∈ s.outs, o.idxs.Nodup) (amps : List K) (j : ℕ) :
    source s amps j = ((s.outs.zip amps).map fun oa => oa.2 *
      ((oa.1.idxs.zip oa.1.weights).map fun iw => if iw.1 = j then iw.2 else 0).sum).sum := by
  have key : ∀ (l : List (PointOut K × K)) (out : ℕ → K), (∀ oa ∈ l, oa.1.idxs.Nodup) →
      l.foldl (fun out oa => fancyAdd out oa.1.idxs (oa.1.weights.map fun w => oa.2 * w)) out j =
        out j + (l.map fun oa => oa.2 *
          ((oa.1.idxs.zip oa.1.weights).map fun iw => if iw.1 = j then iw.2 else 0).sum).sum := by
    intro l
    induction l with
    | nil => intro out _; simp
    | cons a l ih =>
        intro out hl
        rw [List.foldl_cons, ih _ fun oa h => hl oa (List.mem_cons_of_mem _ h),
          fancyAdd_eq _ (hl a List.mem_cons_self), List.map_cons, List.sum_cons, add_assoc]
        congr 2
        rw [List.zip_map_right, List.map_map, ← List.sum_map_mul_left]
        refine congrArg List.sum (List.map_congr_left fun iw _ => ?_)
        simp
  rw [source, key _ _ fun oa h => hs _ (List.of_mem_zip h).1]
  simp

omit [LinearOrder K] [FloorRing K] in
/-- `⟨Hicks.source a, b⟩ = ⟨a, Hicks.receiver b⟩`. -/
theorem transpose (s : Shot K) (n : ℕ) (hs : ∀ o ∈ s.outs, o.idxs.Nodup)
    (hlt : ∀ o ∈ s.outs, ∀ j ∈ o.idxs, j < n) (amps : List K) (b : ℕ → K) :
    ∑ j ∈ Finset.range n, source s amps j * b j = (List.zipWith (· * ·) amps (receiver s b)).sum := by
  have e : ∀ j, source s amps j * b j = ((s.outs.zip amps).map fun oa => oa.2 *
      ((oa.1.idxs.zip oa.1.weights).map fun iw => if iw.1 = j then b iw.1 * iw.2 else 0).sum).sum := by
    intro j
    rw [source_eq s hs, ← List.sum_map_mul_right]
    refine congrArg List.sum (List.map_congr_left fun oa _ => ?_)
    rw [mul_assoc, ← List.sum_map_mul_right]
    refine congrArg _ (congrArg List.sum (List.map_congr_left fun iw _ => ?_))
    split_ifs with h
    · rw [h, mul_comm]
    · simp
  simp only [e]
  have step : ∀ l : List (PointOut K × K), (∀ oa ∈ l, ∀ j ∈ oa.1.idxs, j < n) →
      ∑ j ∈ Finset.range n, (l.map fun oa => oa.2 *
        ((oa.1.idxs.zip oa.1.weights).map fun iw => if iw.1 = j then b iw.1 * iw.2 else 0).sum).sum =
      (l.map fun oa => oa.2 * (List.zipWith (fun j w => b j * w) oa.1.idxs oa.1.weights).sum).sum := by
    intro l
    induction l with
    | nil => intro _; simp
    | cons a l ih =>
        intro hl
        simp only [List.map_cons, List.sum_cons, Finset.sum_add_distrib]
        rw [ih fun oa h => hl oa (List.mem_cons_of_mem _ h), ← Finset.mul_sum]
        congr 2
        have hl := hl a List.mem_cons_self
        generalize a.1.weights = ws
        generalize a.1.idxs = is at hl
        induction is generalizing ws with
        | nil => simp
        | cons i is ih =>
            cases ws with
            | nil => simp
            | cons w ws =>
                simp only [List.zip_cons_cons, List.map_cons, List.sum_cons, Finset.sum_add_distrib,
                  List.zipWith_cons_cons]
                rw [ih ws fun j hj => hl j (List.mem_cons_of_mem _ hj), Finset.sum_ite_eq,
                  if_pos (Finset.mem_range.2 (hl i List.mem_cons_self))]
  rw [step _ fun oa h => hlt _ (List.of_mem_zip h).1, receiver]
  clear e step
  generalize s.outs = l
  induction l generalizing amps with
  | nil => simp
  | cons o l ih => cases amps <;> simp_all

end Dw.Hicks
