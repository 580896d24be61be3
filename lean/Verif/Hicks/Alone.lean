import Verif.Hicks.Lemmas

/-!
# When the cache does not matter
-/

namespace Dw.Hicks

variable {K : Type*} [Field K] [LinearOrder K] [FloorRing K]

/-- A call of `_get_hicks_for_one_location_dim`. -/
structure Use (K : Type*) where
  x : K
  S : Surf K
  mono : Bool

/-- The coordinate is interpolated, not rounded to a cell. -/
def OffGrid (P : Params K) (u : Use K) : Prop := ¬(u.mono = true ∧ |u.x - pyRound u.x| < P.eps)

/-- The window extends beyond a free surface. -/
def Reaches (P : Params K) (u : Use K) : Prop :=
  (∃ f, u.S.lo = some f ∧ ((pyInt u.x - P.halfwidth + 1 : ℤ) : K) < f) ∨
    ∃ f, u.S.hi = some f ∧ f < ((pyInt u.x + P.halfwidth : ℤ) : K)

/-- Earlier use `u` does not affect later use `v`: if they share a cache entry then the fractional parts
agree and `u` is not folded at a free surface. -/
def Compat (P : Params K) (u v : Use K) : Prop :=
  OffGrid P u → OffGrid P v → key P u.x u.mono = key P v.x v.mono →
    u.x - pyInt u.x = v.x - pyInt v.x ∧ ¬Reaches P u

/-- The calls made for a point, in order (lines 164-184). -/
def pointUses (S0 S1 : Surf K) (p : Point K) : List (Use K) :=
  [⟨p.x, S0, p.mono || p.dim == 1⟩, ⟨p.y, S1, p.mono || p.dim == 0⟩]

/-- The weights before folding. -/
def rawWeights (P : Params K) (u : Use K) : List K := (offsets P u.x).map (P.ker u.mono)

/-- What the cache may contain after the uses `pre`. -/
def CacheInv (P : Params K) (pre : List (Use K)) (cache : Cache K) : Prop :=
  ∀ k w, cache k = some w → ∃ u ∈ pre, OffGrid P u ∧ key P u.x u.mono = k ∧
    (¬Reaches P u → w = rawWeights P u)

variable [IsStrictOrderedRing K]

omit [IsStrictOrderedRing K] in
theorem rawWeights_congr {P : Params K} {u v : Use K} (h : u.x - pyInt u.x = v.x - pyInt v.x)
    (hm : u.mono = v.mono) : rawWeights P u = rawWeights P v := by
  have e : ∀ (t x : K), t - x + pyInt x = t - (x - pyInt x) := fun t x => by ring
  simp only [rawWeights, offsets, e, h, hm]

omit [IsStrictOrderedRing K] in
theorem window_head {P : Params K} (hw : 1 ≤ P.halfwidth) (x : K) :
    ∃ l, window P x = (pyInt x - P.halfwidth + 1) :: l := by
  obtain ⟨n, hn⟩ : ∃ n, 2 * P.halfwidth = n + 1 := ⟨2 * P.halfwidth - 1, by omega⟩
  rw [window, hn, List.range_succ_eq_map]
  simp

omit [IsStrictOrderedRing K] in
theorem window_last {P : Params K} (hw : 1 ≤ P.halfwidth) (x : K) :
    (window P x).getLast? = some (pyInt x + P.halfwidth) := by
  obtain ⟨n, hn⟩ : ∃ n, 2 * P.halfwidth = n + 1 := ⟨2 * P.halfwidth - 1, by omega⟩
  rw [window, hn, List.range_succ, List.map_append, List.map_singleton, List.getLast?_concat]
  congr 1
  omega

omit [IsStrictOrderedRing K] in
theorem foldLo_not {P : Params K} (hw : 1 ≤ P.halfwidth) {x : K} {f : Option K}
    (h : ∀ g, f = some g → ¬((pyInt x - P.halfwidth + 1 : ℤ) : K) < g) (w : List K) :
    foldLo f (window P x) w = .ok (window P x, [], w) := by
  obtain ⟨l, hl⟩ := window_head hw x
  cases f with
  | none => rfl
  | some f =>
      rw [hl]
      simp only [foldLo]
      rw [if_neg (h f rfl)]

omit [IsStrictOrderedRing K] in
theorem foldHi_not {P : Params K} (hw : 1 ≤ P.halfwidth) {x : K} {f : Option K}
    (h : ∀ g, f = some g → ¬g < ((pyInt x + P.halfwidth : ℤ) : K)) (w : List K) :
    foldHi f (window P x) w = .ok (window P x, w, w) := by
  cases f with
  | none => rfl
  | some f =>
      simp only [foldHi, window_last hw]
      rw [if_neg (h f rfl)]

/-- Without free surfaces in reach the cells are those of the window and the weights the formula. -/
theorem oneDim_plain {P : Params K} (hw : 1 ≤ P.halfwidth) {u : Use K} (ho : OffGrid P u)
    (hr : ¬Reaches P u) {cache : Cache K}
    (hc : ∀ w, cache (key P u.x u.mono) = some w → w = rawWeights P u) :
    oneDim P cache u.x u.S u.mono = .ok
      (if (cache (key P u.x u.mono)).isSome then cache
        else Function.update cache (key P u.x u.mono) (some (rawWeights P u)),
        window P u.x, rawWeights P u) := by
  have hg : (cache (key P u.x u.mono)).getD ((offsets P u.x).map (P.ker u.mono)) = rawWeights P u := by
    cases hk : cache (key P u.x u.mono) with
    | none => rfl
    | some w => exact hc w hk
  rw [Reaches, not_or] at hr
  rw [oneDim, if_neg ho]
  dsimp only
  rw [locs_eq, hg, foldLo_not hw fun g hg hl => hr.1 ⟨g, hg, hl⟩]
  dsimp only
  rw [foldHi_not hw fun g hg hl => hr.2 ⟨g, hg, hl⟩]
  rfl

theorem oneDim_alone {P : Params K} (hw : 1 ≤ P.halfwidth) {pre : List (Use K)} {u : Use K}
    {cache : Cache K} (hi : CacheInv P pre cache) (hc : ∀ v ∈ pre, Compat P v u)
    {r : Cache K × List ℤ × List K} (h : oneDim P cache u.x u.S u.mono = .ok r) :
    (∃ c, oneDim P (fun _ => none) u.x u.S u.mono = .ok (c, r.2)) ∧
      CacheInv P (pre ++ [u]) r.1 := by
  have mono : ∀ c, CacheInv P pre c → CacheInv P (pre ++ [u]) c := fun c hc k w hk => by
    obtain ⟨v, hv, h⟩ := hc k w hk
    exact ⟨v, List.mem_append_left _ hv, h⟩
  by_cases ho : OffGrid P u
  · have hcache : ∀ w, cache (key P u.x u.mono) = some w → w = rawWeights P u := by
      intro w hk
      obtain ⟨v, hv, hvo, hvk, hvr⟩ := hi _ w hk
      obtain ⟨e1, e2⟩ := hc v hv hvo ho hvk
      rw [hvr e2, rawWeights_congr e1 (congrArg Prod.snd hvk)]
    by_cases hr : Reaches P u
    · have hg : (cache (key P u.x u.mono)).getD ((offsets P u.x).map (P.ker u.mono)) =
          rawWeights P u := by
        cases hk : cache (key P u.x u.mono) with
        | none => rfl
        | some w => exact hcache w hk
      have ho' : ¬(u.mono = true ∧ |u.x - pyRound u.x| < P.eps) := ho
      rw [oneDim, if_neg ho'] at h ⊢
      dsimp only at h ⊢
      rw [hg] at h
      have e0 : (none : Option (List K)).getD ((offsets P u.x).map (P.ker u.mono)) = rawWeights P u :=
        rfl
      rw [e0]
      split at h
      · cases h
      · next l1 cut w1 h1 =>
        split at h
        · cases h
        · next l2 w2 view h2 =>
          obtain rfl := Except.ok.inj h
          refine ⟨⟨_, rfl⟩, ?_⟩
          intro k w hk
          dsimp only at hk
          split_ifs at hk with hs
          · exact mono _ hi k w hk
          · by_cases hkk : k = key P u.x u.mono
            · exact ⟨u, by simp, ho, hkk.symm, fun hn => absurd hr hn⟩
            · rw [Function.update_of_ne hkk] at hk
              exact mono _ hi k w hk
    · rw [oneDim_plain hw ho hr hcache] at h
      obtain rfl := Except.ok.inj h
      refine ⟨⟨_, oneDim_plain hw ho hr (by simp)⟩, ?_⟩
      intro k w hk
      dsimp only at hk
      split_ifs at hk with hs
      · exact mono _ hi k w hk
      · by_cases hkk : k = key P u.x u.mono
        · subst hkk
          rw [Function.update_self] at hk
          exact ⟨u, by simp, ho, rfl, fun _ => (Option.some.inj hk).symm⟩
        · rw [Function.update_of_ne hkk] at hk
          exact mono _ hi k w hk
  · have ho' : u.mono = true ∧ |u.x - pyRound u.x| < P.eps := not_not.1 ho
    rw [oneDim, if_pos ho'] at h ⊢
    obtain rfl := Except.ok.inj h
    exact ⟨⟨_, rfl⟩, mono _ hi⟩

/-- The cells and weights of a point are those which it has alone. -/
def Alone (P : Params K) (S0 S1 : Surf K) (dict : List (ℤ × ℤ)) (p : Point K) (o : PointOut K) : Prop :=
  ∃ c0 c1 l0 l1, oneDim P (fun _ => none) p.x S0 (p.mono || p.dim == 1) = .ok (c0, l0, o.w0) ∧
    oneDim P (fun _ => none) p.y S1 (p.mono || p.dim == 0) = .ok (c1, l1, o.w1) ∧
    List.Forall₂ (fun j l => dict[j]? = some l) o.idxs (l0.product l1)

theorem shotLoop_alone {P : Params K} (hw : 1 ≤ P.halfwidth) {S0 S1 : Surf K} (ps : List (Point K)) :
    ∀ {pre : List (Use K)} {cache : Cache K} {dict : List (ℤ × ℤ)}
      {r : Cache K × List (ℤ × ℤ) × List (PointOut K)},
    shotLoop P S0 S1 cache dict ps = .ok r → dict.Nodup → CacheInv P pre cache →
    (pre ++ ps.flatMap (pointUses S0 S1)).Pairwise (Compat P) →
    CacheInv P (pre ++ ps.flatMap (pointUses S0 S1)) r.1 ∧ dict <+: r.2.1 ∧
      List.Forall₂ (Alone P S0 S1 r.2.1) ps r.2.2 := by
  induction ps with
  | nil =>
      intro pre cache dict r h _ hi _
      obtain rfl := Except.ok.inj h
      exact ⟨by simpa using hi, List.prefix_rfl, .nil⟩
  | cons p ps ih =>
      intro pre cache dict r h hd hi hp
      have hflat : pre ++ (p :: ps).flatMap (pointUses S0 S1) =
          (pre ++ [⟨p.x, S0, p.mono || p.dim == 1⟩] ++ [⟨p.y, S1, p.mono || p.dim == 0⟩])
            ++ ps.flatMap (pointUses S0 S1) := by
        simp [pointUses]
      rw [hflat] at hp ⊢
      have hp1 := (List.pairwise_append.1 hp).1
      rw [List.pairwise_append] at hp1
      have hp0 := hp1.1
      rw [List.pairwise_append] at hp0
      rw [shotLoop] at h
      split at h
      · cases h
      · next c1 l0 w0 h0 =>
        obtain ⟨⟨d0, a0⟩, a1⟩ := oneDim_alone (u := ⟨p.x, S0, p.mono || p.dim == 1⟩) hw hi
          (fun v hv => hp0.2.2 v hv _ (by simp)) h0
        split at h
        · cases h
        · next c2 l1 w1 h1 =>
          obtain ⟨⟨d1, b0⟩, b1⟩ := oneDim_alone (u := ⟨p.y, S1, p.mono || p.dim == 0⟩) hw a1
            (fun v hv => hp1.2.2 v hv _ (by simp)) h1
          obtain ⟨i1, i2, i3, -⟩ := indexAll_spec (l0.product l1) dict hd
          dsimp only at h
          split at h
          · cases h
          · next c3 dict' outs h3 =>
            obtain ⟨q1, q2, q3⟩ := ih h3 i2 b1 hp
            obtain rfl := Except.ok.inj h
            refine ⟨q1, i1.trans q2, .cons ⟨d0, d1, l0, l1, a0, b0, ?_⟩ q3⟩
            refine i3.imp fun j l hj => ?_
            obtain ⟨t, ht⟩ := q2
            dsimp only at ht
            obtain ⟨hlt, -⟩ := List.getElem?_eq_some_iff.1 hj
            rw [← ht, List.getElem?_append_left hlt, hj]

theorem shots_alone {P : Params K} (hw : 1 ≤ P.halfwidth) {S0 S1 : Surf K}
    (pss : List (List (Point K))) : ∀ {pre : List (Use K)} {cache : Cache K} {H : List (Shot K)},
    shots P S0 S1 cache pss = .ok H → CacheInv P pre cache →
    (pre ++ pss.flatten.flatMap (pointUses S0 S1)).Pairwise (Compat P) →
    List.Forall₂ (fun ps s => List.Forall₂ (Alone P S0 S1 s.locs) ps s.outs) pss H := by
  induction pss with
  | nil =>
      intro pre cache H h _ _
      obtain rfl := Except.ok.inj h
      exact .nil
  | cons ps rest ih =>
      intro pre cache H h hi hp
      rw [List.flatten_cons, List.flatMap_append, ← List.append_assoc] at hp
      rw [shots] at h
      split at h
      · cases h
      · next c1 dict outs h1 =>
        obtain ⟨a1, -, a3⟩ := shotLoop_alone hw ps h1 List.nodup_nil hi (List.pairwise_append.1 hp).1
        split at h
        · cases h
        · next r h2 =>
          obtain rfl := Except.ok.inj h
          exact .cons a3 (ih h2 a1 hp)

end Dw.Hicks
