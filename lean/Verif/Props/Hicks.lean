import Verif.Hicks.Surface
import Mathlib.Data.Rat.Floor
import Mathlib.Tactic.NormNum

/-!
# Off-grid sources and receivers

Properties C38, C39, C51, C52.
-/

namespace Dw.Hicks

variable {K : Type*} [Field K] [LinearOrder K] [FloorRing K] [IsStrictOrderedRing K]

/-! ### What a propagator does with the locations -/

/-- What receivers at the grid locations of a shot record in a wavefield `u`. -/
def atLocs (s : Shot K) (u : ℤ × ℤ → K) (j : ℕ) : K :=
  match s.locs[j]? with
  | some c => u c
  | none => 0

/-- What sources at the grid locations of a shot add to cell `c`. -/
def spread (s : Shot K) (amps : List K) (c : ℤ × ℤ) : K :=
  ∑ j ∈ Finset.range s.locs.length, if s.locs[j]? = some c then source s amps j else 0

omit [FloorRing K] [LinearOrder K] [IsStrictOrderedRing K] in
theorem atLocs_of {s : Shot K} {u : ℤ × ℤ → K} {j : ℕ} {c : ℤ × ℤ} (h : s.locs[j]? = some c) :
    atLocs s u j = u c := by
  rw [atLocs, h]

omit [IsStrictOrderedRing K] in
theorem hicks_shots {P : Params K} {S0 S1 : Surf K} {pss : List (List (Point K))} {H : List (Shot K)}
    (h : hicks P S0 S1 pss = .ok H) : 1 ≤ P.halfwidth ∧ shots P S0 S1 (fun _ => none) pss = .ok H := by
  rw [hicks] at h
  split_ifs at h with hw
  exact ⟨by omega, h⟩

omit [LinearOrder K] [FloorRing K] [IsStrictOrderedRing K] [Field K] in
theorem forall₂_mem_right {α β : Type*} {R : α → β → Prop} {l : List α} {l' : List β}
    (h : List.Forall₂ R l l') {b : β} (hb : b ∈ l') : ∃ a ∈ l, R a b := by
  induction h with
  | nil => simp at hb
  | cons h1 _ ih =>
      rcases List.mem_cons.1 hb with rfl | hb
      · exact ⟨_, List.mem_cons_self, h1⟩
      · obtain ⟨a, ha, h⟩ := ih hb
        exact ⟨a, List.mem_cons_of_mem _ ha, h⟩

theorem hicks_good {P : Params K} {S0 S1 : Surf K} {pss : List (List (Point K))} {H : List (Shot K)}
    (h : hicks P S0 S1 pss = .ok H) {s : Shot K} (hs : s ∈ H) : s.locs.Nodup ∧
      ∀ o ∈ s.outs, ∃ l0 l1, Shape s.locs o l0 l1 := by
  obtain ⟨-, h⟩ := hicks_shots h
  obtain ⟨ps, -, h1, h2⟩ := forall₂_mem_right (shots_spec pss h (by intro k w hk; cases hk)) hs
  refine ⟨h1, fun o ho => ?_⟩
  obtain ⟨p, -, l0, l1, h3, -⟩ := forall₂_mem_right h2 ho
  exact ⟨l0, l1, h3⟩

theorem le_foldl_max (l : List ℕ) : ∀ a, a ≤ l.foldl max a ∧ ∀ n ∈ l, n ≤ l.foldl max a := by
  induction l with
  | nil => simp
  | cons m l ih =>
      intro a
      rw [List.foldl_cons]
      obtain ⟨h1, h2⟩ := ih (max a m)
      refine ⟨le_trans (le_max_left _ _) h1, fun n hn => ?_⟩
      rcases List.mem_cons.1 hn with rfl | hn
      · exact le_trans (le_max_right _ _) h1
      · exact h2 n hn

omit [FloorRing K] [LinearOrder K] [IsStrictOrderedRing K] [Field K] in
theorem getLocations_length {H : List (Shot K)} {s : Shot K} (hs : s ∈ H) :
    (getLocations H s).length = (H.map fun s => s.locs.length).foldl max 0 := by
  have := (le_foldl_max (H.map fun s => s.locs.length) 0).2 s.locs.length (List.mem_map.2 ⟨s, hs, rfl⟩)
  rw [getLocations, List.length_append, List.length_map, List.length_replicate]
  omega

/-! ### C38 -/

omit [Field K] [LinearOrder K] [FloorRing K] [IsStrictOrderedRing K] in
/-- C38: the rows of locations of all shots have the same length. -/
theorem C38_rows_equal {H : List (Shot K)} {s s' : Shot K} (hs : s ∈ H) (hs' : s' ∈ H) :
    (getLocations H s).length = (getLocations H s').length := by
  rw [getLocations_length hs, getLocations_length hs']

/-- C38: within a shot no grid location occurs twice. -/
theorem C38_locations_unique {P : Params K} {S0 S1 : Surf K} {pss : List (List (Point K))}
    {H : List (Shot K)} (h : hicks P S0 S1 pss = .ok H) {s : Shot K} (hs : s ∈ H) {i j : ℕ} {c : ℤ × ℤ}
    (hi : (getLocations H s)[i]? = some (some c)) (hj : (getLocations H s)[j]? = some (some c)) :
    i = j := by
  have key : ∀ i : ℕ, (getLocations H s)[i]? = some (some c) → s.locs[i]? = some c := by
    intro i hi
    rw [getLocations, List.getElem?_append] at hi
    split_ifs at hi with hl
    · simpa using hi
    · rw [List.getElem?_replicate] at hi
      split_ifs at hi
      cases Option.some.inj hi
  obtain ⟨h1, h2⟩ := List.getElem?_eq_some_iff.1 (key i hi)
  obtain ⟨h3, h4⟩ := List.getElem?_eq_some_iff.1 (key j hj)
  exact (hicks_good h hs).1.getElem_inj_iff.1 (h2.trans h4.symm)

/-- C38: spreading amplitudes over the grid locations (`source`) and gathering from them (`receiver`)
are transposes, for all amplitudes and all data. -/
theorem C38_source_receiver_transpose {P : Params K} {S0 S1 : Surf K} {pss : List (List (Point K))}
    {H : List (Shot K)} (h : hicks P S0 S1 pss = .ok H) {s : Shot K} (hs : s ∈ H) (amps : List K)
    (b : ℕ → K) : ∑ j ∈ Finset.range (getLocations H s).length, source s amps j * b j =
      (List.zipWith (· * ·) amps (receiver s b)).sum := by
  have hle : s.locs.length ≤ (getLocations H s).length := by
    rw [getLocations, List.length_append, List.length_map]; omega
  refine transpose s _ (fun o ho => ?_) (fun o ho j hj => ?_) amps b
  · obtain ⟨l0, l1, hsh⟩ := (hicks_good h hs).2 o ho
    exact hsh.idxs_nodup
  · obtain ⟨l0, l1, hsh⟩ := (hicks_good h hs).2 o ho
    exact lt_of_lt_of_le (hsh.idxs_lt j hj) hle

/-- C38: nothing is put into the padding of the rows. -/
theorem C38_source_zero_at_ignored {P : Params K} {S0 S1 : Surf K} {pss : List (List (Point K))}
    {H : List (Shot K)} (h : hicks P S0 S1 pss = .ok H) {s : Shot K} (hs : s ∈ H) (amps : List K)
    {j : ℕ} (hj : (getLocations H s)[j]? = some none) : source s amps j = 0 := by
  have hlt : j < (getLocations H s).length := (List.getElem?_eq_some_iff.1 hj).1
  have hge : s.locs.length ≤ j := by
    by_contra hc
    rw [getLocations, List.getElem?_append_left (by simpa using hc)] at hj
    simp at hj
  have hT := C38_source_receiver_transpose h hs amps fun i => if i = j then 1 else 0
  rw [Finset.sum_eq_single j (by intro i _ hi; simp [hi])
    (by intro hn; exact absurd (Finset.mem_range.2 hlt) hn), if_pos rfl, mul_one] at hT
  rw [hT]
  have hz : ∀ v ∈ receiver s (fun i => if i = j then (1 : K) else 0), v = 0 := by
    intro v hv
    obtain ⟨o, ho, rfl⟩ := List.mem_map.1 hv
    obtain ⟨l0, l1, hsh⟩ := (hicks_good h hs).2 o ho
    refine List.sum_eq_zero fun w hw => ?_
    rw [List.mem_iff_getElem?] at hw
    obtain ⟨i, hi⟩ := hw
    rw [List.getElem?_zipWith] at hi
    split at hi
    · next a b ha hb =>
      obtain rfl := Option.some.inj hi
      have := hsh.idxs_lt a (List.mem_of_getElem? ha)
      have hne : a ≠ j := by omega
      simp [hne]
    · cases hi
  refine List.sum_eq_zero fun w hw => ?_
  rw [List.mem_iff_getElem?] at hw
  obtain ⟨i, hi⟩ := hw
  rw [List.getElem?_zipWith] at hi
  split at hi
  · next a b ha hb =>
    obtain rfl := Option.some.inj hi
    rw [hz b (List.mem_of_getElem? hb), mul_zero]
  · cases hi

/-- C38, seen from the wavefield: what the sources add to the wavefield, paired with any field, is
what the receivers measure of that field, paired with the amplitudes. -/
theorem C38_spread_adjoint {P : Params K} {S0 S1 : Surf K} {pss : List (List (Point K))}
    {H : List (Shot K)} (h : hicks P S0 S1 pss = .ok H) {s : Shot K} (hs : s ∈ H) (amps : List K)
    (u : ℤ × ℤ → K) : ∑ c ∈ s.locs.toFinset, spread s amps c * u c =
      (List.zipWith (· * ·) amps (receiver s (atLocs s u))).sum := by
  rw [← transpose s s.locs.length (fun o ho => ?_) (fun o ho j hj => ?_) amps (atLocs s u)]
  · simp only [spread, Finset.sum_mul]
    rw [Finset.sum_comm]
    refine Finset.sum_congr rfl fun j hj => ?_
    have hj' := Finset.mem_range.1 hj
    have hg : s.locs[j]? = some s.locs[j] := List.getElem?_eq_getElem hj'
    rw [Finset.sum_eq_single s.locs[j]]
    · rw [if_pos hg, atLocs_of hg]
    · intro c _ hc
      rw [if_neg (fun h => hc (Option.some.inj (h.symm.trans hg))), zero_mul]
    · intro hn
      exact absurd (List.mem_toFinset.2 (List.getElem_mem hj')) hn
  · obtain ⟨l0, l1, hsh⟩ := (hicks_good h hs).2 o ho
    exact hsh.idxs_nodup
  · obtain ⟨l0, l1, hsh⟩ := (hicks_good h hs).2 o ho
    exact hsh.idxs_lt j hj

theorem pyRound_near {x : K} {z : ℤ} (h : |x - z| < 1 / 2) : pyRound x = z := by
  rw [abs_lt] at h
  rw [pyRound]
  rcases le_or_gt (z : K) x with hz | hz
  · have hf : ⌊x⌋ = z := Int.floor_eq_iff.2 ⟨hz, by linarith⟩
    rw [hf, if_pos h.2]
  · have hf : ⌊x⌋ = z - 1 := Int.floor_eq_iff.2 ⟨by push_cast; linarith, by push_cast; linarith⟩
    rw [hf]
    push_cast
    rw [if_neg (by linarith), if_pos (by linarith)]
    ring

/-- C38: a monopole within `eps` of a grid cell measures exactly the value of that cell, whatever the
other points of the call are. -/
theorem C38_on_grid {P : Params K} {S0 S1 : Surf K} {pss : List (List (Point K))} {H : List (Shot K)}
    (h : hicks P S0 S1 pss = .ok H) {k i : ℕ} {ps : List (Point K)} {s : Shot K} {p : Point K}
    (hps : pss[k]? = some ps) (hs : H[k]? = some s) (hp : ps[i]? = some p) (hm : p.mono = true)
    (he : P.eps ≤ 1 / 2) {z : ℤ × ℤ} (hx : |p.x - z.1| < P.eps) (hy : |p.y - z.2| < P.eps)
    (u : ℤ × ℤ → K) : (receiver s (atLocs s u))[i]? = some (u z) := by
  obtain ⟨-, h⟩ := hicks_shots h
  have hk := (List.forall₂_iff_get.1 (shots_spec pss h (by intro k w hk; cases hk)))
  obtain ⟨k1, k2⟩ := List.getElem?_eq_some_iff.1 hps
  obtain ⟨k3, k4⟩ := List.getElem?_eq_some_iff.1 hs
  obtain ⟨-, hall⟩ := hk.2 k k1 k3
  rw [List.get_eq_getElem, List.get_eq_getElem, k2, k4] at hall
  have hi := List.forall₂_iff_get.1 hall
  obtain ⟨i1, i2⟩ := List.getElem?_eq_some_iff.1 hp
  have i3 : i < s.outs.length := hi.1 ▸ i1
  obtain ⟨l0, l1, hsh, ⟨c, c', h0⟩, d, d', h1⟩ := hi.2 i i1 i3
  rw [List.get_eq_getElem, i2] at h0 h1
  rw [List.get_eq_getElem] at hsh h0 h1
  have rx := pyRound_near (lt_of_lt_of_le hx he)
  have ry := pyRound_near (lt_of_lt_of_le hy he)
  rw [oneDim, if_pos ⟨by simp [hm], by rw [rx]; exact hx⟩, rx] at h0
  rw [oneDim, if_pos ⟨by simp [hm], by rw [ry]; exact hy⟩, ry] at h1
  have e0 := Except.ok.inj h0
  have e1 := Except.ok.inj h1
  simp only [Prod.mk.injEq] at e0 e1
  rw [receiver, List.getElem?_map, List.getElem?_eq_getElem i3, Option.map_some,
    receiver_entry hsh.idxs hsh.len0 hsh.len1 _ u fun j c hj => atLocs_of hj, ← e0.2.1, ← e0.2.2,
    ← e1.2.1, ← e1.2.2]
  simp

/-! ### C39 -/

omit [IsStrictOrderedRing K] in
/-- Cells and weights depend on the cache only through the entry used. -/
theorem oneDim_congr {P : Params K} {c c' : Cache K} {x : K} {S : Surf K} {mono : Bool}
    (h : (c (key P x mono)).getD ((offsets P x).map (P.ker mono)) =
      (c' (key P x mono)).getD ((offsets P x).map (P.ker mono)))
    {r : Cache K × List ℤ × List K} (hr : oneDim P c x S mono = .ok r) :
    ∃ d, oneDim P c' x S mono = .ok (d, r.2) := by
  rw [oneDim] at hr ⊢
  split_ifs at hr ⊢ with hg
  · obtain rfl := Except.ok.inj hr
    exact ⟨_, rfl⟩
  · dsimp only at hr ⊢
    rw [← h]
    split at hr
    · cases hr
    · next l1 cut w1 h1 =>
      split at hr
      · cases hr
      · next l2 w2 view h2 =>
        obtain rfl := Except.ok.inj hr
        exact ⟨_, rfl⟩

omit [IsStrictOrderedRing K] in
theorem oneDim_ok {P : Params K} {pre : List (Use K)} {u : Use K}
    {cache : Cache K} (hi : CacheInv P pre cache) (hc : ∀ v ∈ pre, Compat P v u)
    {r : Cache K × List ℤ × List K} (h : oneDim P (fun _ => none) u.x u.S u.mono = .ok r) :
    ∃ d, oneDim P cache u.x u.S u.mono = .ok (d, r.2) := by
  by_cases ho : OffGrid P u
  · refine oneDim_congr ?_ h
    cases hk : cache (key P u.x u.mono) with
    | none => rfl
    | some w =>
        obtain ⟨v, hv, hvo, hvk, hvr⟩ := hi _ w hk
        obtain ⟨e1, e2⟩ := hc v hv hvo ho hvk
        rw [Option.getD_some, hvr e2, rawWeights_congr e1 (congrArg Prod.snd hvk)]
        rfl
  · have hg := not_not.1 ho
    rw [oneDim, if_pos hg] at h ⊢
    obtain rfl := Except.ok.inj h
    exact ⟨_, rfl⟩

/-- Alone, a point does not make the call fail. -/
def Fine (P : Params K) (S0 S1 : Surf K) (p : Point K) : Prop :=
  ∀ u ∈ pointUses S0 S1 p, ∃ r, oneDim P (fun _ => none) u.x u.S u.mono = .ok r

theorem shotLoop_ok {P : Params K} (hw : 1 ≤ P.halfwidth) {S0 S1 : Surf K} (ps : List (Point K)) :
    ∀ {pre : List (Use K)} {cache : Cache K} {dict : List (ℤ × ℤ)}, CacheInv P pre cache →
    (pre ++ ps.flatMap (pointUses S0 S1)).Pairwise (Compat P) → (∀ p ∈ ps, Fine P S0 S1 p) →
    ∃ r, shotLoop P S0 S1 cache dict ps = .ok r := by
  induction ps with
  | nil => exact fun _ _ _ => ⟨_, rfl⟩
  | cons p ps ih =>
      intro pre cache dict hi hp hf
      have hfp := hf p List.mem_cons_self
      obtain ⟨r0, h0⟩ := hfp ⟨p.x, S0, p.mono || p.dim == 1⟩ (by simp [pointUses])
      obtain ⟨r1, h1⟩ := hfp ⟨p.y, S1, p.mono || p.dim == 0⟩ (by simp [pointUses])
      have hflat : pre ++ (p :: ps).flatMap (pointUses S0 S1) =
          ((pre ++ [⟨p.x, S0, p.mono || p.dim == 1⟩]) ++ [⟨p.y, S1, p.mono || p.dim == 0⟩]) ++
            ps.flatMap (pointUses S0 S1) := by
        simp [pointUses]
      rw [hflat] at hp
      have hp2 := (List.pairwise_append.1 hp).1
      have hc1 := (List.pairwise_append.1 hp2).2.2
      have hp1 := (List.pairwise_append.1 hp2).1
      have hc0 := (List.pairwise_append.1 hp1).2.2
      obtain ⟨d0, e0⟩ := oneDim_ok hi (fun v hv => hc0 v hv _ (List.mem_singleton.2 rfl)) h0
      have hi1 := (oneDim_alone hw hi (fun v hv => hc0 v hv _ (List.mem_singleton.2 rfl)) e0).2
      obtain ⟨d1, e1⟩ := oneDim_ok hi1 (fun v hv => hc1 v hv _ (List.mem_singleton.2 rfl)) h1
      have hi2 := (oneDim_alone hw hi1 (fun v hv => hc1 v hv _ (List.mem_singleton.2 rfl)) e1).2
      obtain ⟨r, hr⟩ := ih (dict := (indexAll dict (r0.2.1.product r1.2.1)).1) hi2 hp
        fun q hq => hf q (List.mem_cons_of_mem _ hq)
      dsimp only at e0 e1 hr
      refine ⟨(r.1, r.2.1, ⟨(indexAll dict (r0.2.1.product r1.2.1)).2, r0.2.2, r1.2.2⟩ :: r.2.2), ?_⟩
      rw [shotLoop, e0]
      dsimp only
      rw [e1]
      dsimp only
      rw [hr]

theorem shots_ok {P : Params K} (hw : 1 ≤ P.halfwidth) {S0 S1 : Surf K}
    (pss : List (List (Point K))) : ∀ {pre : List (Use K)} {cache : Cache K}, CacheInv P pre cache →
    (pre ++ pss.flatten.flatMap (pointUses S0 S1)).Pairwise (Compat P) →
    (∀ ps ∈ pss, ∀ p ∈ ps, Fine P S0 S1 p) → ∃ H, shots P S0 S1 cache pss = .ok H := by
  induction pss with
  | nil => exact fun _ _ _ => ⟨_, rfl⟩
  | cons ps rest ih =>
      intro pre cache hi hp hf
      rw [List.flatten_cons, List.flatMap_append, ← List.append_assoc] at hp
      obtain ⟨⟨c, d, o⟩, hr⟩ := shotLoop_ok (dict := []) hw ps hi (List.pairwise_append.1 hp).1
        (hf ps List.mem_cons_self)
      obtain ⟨hi', -, -⟩ := shotLoop_alone hw ps hr List.nodup_nil hi (List.pairwise_append.1 hp).1
      obtain ⟨H, hH⟩ := ih hi' hp fun qs hq => hf qs (List.mem_cons_of_mem _ hq)
      dsimp only at hH
      refine ⟨⟨d, o⟩ :: H, ?_⟩
      rw [shots, hr]
      dsimp only
      rw [hH]

omit [IsStrictOrderedRing K] in
theorem cacheInv_empty (P : Params K) : CacheInv P [] fun _ => none := by
  intro k w hk
  cases hk

/-- What a receiver at `p` measures, from two calls with an empty cache. -/
theorem alone_value {P : Params K} {S0 S1 : Surf K} {dict : List (ℤ × ℤ)} {p : Point K}
    {o : PointOut K} (h : Alone P S0 S1 dict p o) {c0 c1 : Cache K} {l0 l1 : List ℤ} {w0 w1 : List K}
    (h0 : oneDim P (fun _ => none) p.x S0 (p.mono || p.dim == 1) = .ok (c0, l0, w0))
    (h1 : oneDim P (fun _ => none) p.y S1 (p.mono || p.dim == 0) = .ok (c1, l1, w1))
    (rcd : ℕ → K) (u : ℤ × ℤ → K) (hu : ∀ j c, dict[j]? = some c → rcd j = u c) :
    (List.zipWith (fun j w => rcd j * w) o.idxs o.weights).sum =
      (List.zipWith (fun a w => w * (List.zipWith (fun b v => v * u (a, b)) l1 w1).sum) l0 w0).sum := by
  obtain ⟨d0, d1, m0, m1, e0, e1, hi⟩ := h
  have a0 := Except.ok.inj (e0.symm.trans h0)
  have a1 := Except.ok.inj (e1.symm.trans h1)
  simp only [Prod.mk.injEq] at a0 a1
  obtain ⟨-, rfl, rfl⟩ := a0
  obtain ⟨-, rfl, rfl⟩ := a1
  have s0 := (oneDim_shape e0 (by intro k w hk; cases hk)).2.2
  have s1 := (oneDim_shape e1 (by intro k w hk; cases hk)).2.2
  exact receiver_entry hi s0 s1 rcd u hu

/-- The earlier of two interpolated coordinates does not affect the later one: if their fractional
parts are close then they are equal, and the earlier one is not folded at a free surface. -/
def Apart (P : Params K) (u v : Use K) : Prop :=
  OffGrid P u → OffGrid P v → u.mono = v.mono →
    |(u.x - pyInt u.x) - (v.x - pyInt v.x)| < 2 * P.eps →
    u.x - pyInt u.x = v.x - pyInt v.x ∧ ¬Reaches P u

theorem pyInt_lt (x : K) : |x - pyInt x| < 1 := by
  rw [pyInt, abs_lt]
  split_ifs
  · have := Int.floor_le x
    have := Int.lt_floor_add_one x
    constructor <;> linarith
  · have := Int.le_ceil x
    have := Int.ceil_lt_add_one x
    constructor <;> linarith

theorem Apart.compat {P : Params K} (he : 0 < P.eps) {u v : Use K} (h : Apart P u v) : Compat P u v := by
  intro hu hv hk
  refine h hu hv (congrArg Prod.snd hk) ?_
  have hk1 : pyInt ((u.x - pyInt u.x) / P.eps) = pyInt ((v.x - pyInt v.x) / P.eps) := congrArg Prod.fst hk
  generalize u.x - (pyInt u.x : K) = a at hk1 ⊢
  generalize v.x - (pyInt v.x : K) = b at hk1 ⊢
  have h1 := abs_lt.1 (pyInt_lt (a / P.eps))
  have h2 := abs_lt.1 (pyInt_lt (b / P.eps))
  rw [hk1] at h1
  have h3 : |a / P.eps - b / P.eps| < 2 := abs_lt.2 ⟨by linarith, by linarith⟩
  rwa [← sub_div, abs_div, abs_of_pos he, div_lt_iff₀ he] at h3

/-- C39 (partial): what the receiver at a point measures of any field is what it measures when the
point is the only one of the call.  Missing: it is assumed that a cached entry is only used for points
with exactly the same fractional part and is not one that was folded at a free surface (`Apart`);
`C39_fails_at_free_surface` and `C39_fails_for_close_fractions` show that both are needed. -/
theorem C39_measures_as_alone_partial {P : Params K} {S0 S1 : Surf K} {pss : List (List (Point K))}
    {H : List (Shot K)} (h : hicks P S0 S1 pss = .ok H)
    (he : 0 < P.eps) (hc : (pss.flatten.flatMap (pointUses S0 S1)).Pairwise (Apart P)) (u : ℤ × ℤ → K) :
    List.Forall₂ (fun ps s => List.Forall₂ (fun p v => ∃ s1, hicks P S0 S1 [[p]] = .ok [s1] ∧
      receiver s1 (atLocs s1 u) = [v]) ps (receiver s (atLocs s u))) pss H := by
  obtain ⟨hw, hs⟩ := hicks_shots h
  replace hc := hc.imp fun h => Apart.compat he h
  have key : ∀ p ∈ pss.flatten, ∀ dict o, Alone P S0 S1 dict p o → ∀ rcd : ℕ → K,
      (∀ j c, dict[j]? = some c → rcd j = u c) → ∃ s1, hicks P S0 S1 [[p]] = .ok [s1] ∧
        receiver s1 (atLocs s1 u) = [(List.zipWith (fun j w => rcd j * w) o.idxs o.weights).sum] := by
    intro p hp dict o ha rcd hu
    have hsub : List.Sublist ([[p]].flatten.flatMap (pointUses S0 S1))
        (pss.flatten.flatMap (pointUses S0 S1)) := by
      have : [[p]].flatten = [p] := rfl
      rw [this]
      exact (List.singleton_sublist.2 hp).flatMap _
    have hc1 := hc.sublist hsub
    obtain ⟨c0, c1, l0, l1, h0, h1, hi⟩ := ha
    obtain ⟨H1, hH1⟩ := shots_ok (S0 := S0) (S1 := S1) hw [[p]] (cacheInv_empty P) hc1 (by
      intro ps hps q hq
      obtain rfl := List.mem_singleton.1 hps
      obtain rfl := List.mem_singleton.1 hq
      intro v hv
      simp only [pointUses, List.mem_cons, List.not_mem_nil, or_false] at hv
      rcases hv with rfl | rfl
      · exact ⟨_, h0⟩
      · exact ⟨_, h1⟩)
    have hA := shots_alone hw [[p]] hH1 (cacheInv_empty P) hc1
    obtain ⟨s1, H', hs1, hnil, rfl⟩ := List.forall₂_cons_left_iff.1 hA
    obtain rfl := List.forall₂_nil_left_iff.1 hnil
    obtain ⟨o1, os, ho1, hnil, hos⟩ := List.forall₂_cons_left_iff.1 hs1
    obtain rfl := List.forall₂_nil_left_iff.1 hnil
    refine ⟨s1, ?_, ?_⟩
    · rw [hicks]
      rw [hicks] at h
      split_ifs at h ⊢
      exact hH1
    · rw [receiver, hos, List.map_singleton,
        alone_value ho1 h0 h1 _ u fun j c hj => atLocs_of hj,
        alone_value ⟨c0, c1, l0, l1, h0, h1, hi⟩ h0 h1 rcd u hu]
  have hall := (List.forall₂_and_left _ _).2
    ⟨fun ps hps => hps, shots_alone hw pss hs (cacheInv_empty P) hc⟩
  refine hall.imp fun ps s hss => ?_
  obtain ⟨hps, hA⟩ := hss
  rw [receiver, List.forall₂_map_right_iff]
  refine ((List.forall₂_and_left _ _).2 ⟨fun p hp => hp, hA⟩).imp fun p o hpo => ?_
  exact key p (List.mem_flatten.2 ⟨ps, hps, hpo.1⟩) s.locs o hpo.2 _ fun j c hj => atLocs_of hj

/-- C39 fails at free surfaces, for every window function that does not vanish at distance -3/2: the
second point, far from the surface, gets other weights because the first point, whose fractional part
is the same, was folded. -/
theorem C39_fails_at_free_surface (ker : Bool → K → K) (h : ker true (-(3 / 2)) ≠ 0) :
    let P : Params K := ⟨2, ker, 1 / 10 ^ 5⟩
    let S0 : Surf K := ⟨some (-1 / 2), none⟩
    let p : Point K := ⟨1 / 2, 0, true, 0⟩
    let q : Point K := ⟨11 / 2, 0, true, 0⟩
    ∃ s s1 u v v1, hicks P S0 ⟨none, none⟩ [[p, q]] = .ok [s] ∧ hicks P S0 ⟨none, none⟩ [[q]] = .ok [s1] ∧
      (receiver s (atLocs s u))[1]? = some v ∧ receiver s1 (atLocs s1 u) = [v1] ∧ v ≠ v1 := by
  intro P S0 p q
  have e1 : hicks P S0 ⟨none, none⟩ [[p, q]] = .ok [⟨[(0, 0), (1, 0), (2, 0), (4, 0), (5, 0), (6, 0), (7, 0)],
      [⟨[0, 1, 2], [ker true (-(1 / 2)) - ker true (-(3 / 2)), ker true (1 / 2), ker true (3 / 2)], [1]⟩,
       ⟨[3, 4, 5, 6], [ker true (-(3 / 2)), ker true (-(1 / 2)) - ker true (-(3 / 2)), ker true (1 / 2),
        ker true (3 / 2)], [1]⟩]⟩] := by
    norm_num [P, S0, p, q, hicks, shots, shotLoop, oneDim, pyInt, pyRound, key, offsets, foldLo, foldHi, List.range_succ,
      subSlice, bound, isclose, show Int.toNat 2 = 2 from rfl, indexAll, List.product, List.idxOf, List.findIdx]
    have hk : key P q.x (q.mono || q.dim == 1) = (50000, true) := by norm_num [key, P, q, pyInt]
    rw [hk]
    simp
  have e2 : hicks P S0 ⟨none, none⟩ [[q]] = .ok [⟨[(4, 0), (5, 0), (6, 0), (7, 0)],
      [⟨[0, 1, 2, 3], [ker true (-(3 / 2)), ker true (-(1 / 2)), ker true (1 / 2), ker true (3 / 2)], [1]⟩]⟩] := by
    norm_num [P, S0, p, q, hicks, shots, shotLoop, oneDim, pyInt, pyRound, key, offsets, foldLo, foldHi, List.range_succ,
      subSlice, bound, isclose, show Int.toNat 2 = 2 from rfl, indexAll, List.product, List.idxOf, List.findIdx]
  refine ⟨_, _, fun c => if c = (5, 0) then 1 else 0, _, _, e1, e2, rfl, rfl, ?_⟩
  simp [PointOut.weights, atLocs, h]

/-- C39 fails for fractional parts that are close but not equal: the second point gets the weights of
the first, for every window function that distinguishes the two. -/
theorem C39_fails_for_close_fractions (ker : Bool → K → K)
    (h : ker true (-(1 / 2)) ≠ ker true (-(100001 / 200000))) :
    let P : Params K := ⟨1, ker, 1 / 10 ^ 5⟩
    let p : Point K := ⟨1 / 2, 0, true, 0⟩
    let q : Point K := ⟨100001 / 200000, 0, true, 0⟩
    ∃ s s1 u v v1, hicks P ⟨none, none⟩ ⟨none, none⟩ [[p, q]] = .ok [s] ∧
      hicks P ⟨none, none⟩ ⟨none, none⟩ [[q]] = .ok [s1] ∧
      (receiver s (atLocs s u))[1]? = some v ∧ receiver s1 (atLocs s1 u) = [v1] ∧ v ≠ v1 := by
  intro P p q
  have e1 : hicks P ⟨none, none⟩ ⟨none, none⟩ [[p, q]] = .ok [⟨[(0, 0), (1, 0)],
      [⟨[0, 1], [ker true (-(1 / 2)), ker true (1 / 2)], [1]⟩,
       ⟨[0, 1], [ker true (-(1 / 2)), ker true (1 / 2)], [1]⟩]⟩] := by
    norm_num [P, p, q, hicks, shots, shotLoop, oneDim, pyInt, pyRound, key, offsets, foldLo, foldHi, List.range_succ,
      subSlice, bound, isclose, show Int.toNat 2 = 2 from rfl, indexAll, List.product, List.idxOf, List.findIdx]
    have hk : key P q.x (q.mono || q.dim == 1) = (50000, true) := by norm_num [key, P, q, pyInt]
    rw [hk]
    exact ⟨⟨rfl, rfl⟩, by simp⟩
  have e2 : hicks P ⟨none, none⟩ ⟨none, none⟩ [[q]] = .ok [⟨[(0, 0), (1, 0)],
      [⟨[0, 1], [ker true (-(100001 / 200000)), ker true (99999 / 200000)], [1]⟩]⟩] := by
    norm_num [P, p, q, hicks, shots, shotLoop, oneDim, pyInt, pyRound, key, offsets, foldLo, foldHi, List.range_succ,
      subSlice, bound, isclose, show Int.toNat 2 = 2 from rfl, indexAll, List.product, List.idxOf, List.findIdx]
  refine ⟨_, _, fun c => if c = (0, 0) then 1 else 0, _, _, e1, e2, rfl, rfl, ?_⟩
  simpa [PointOut.weights, atLocs] using h

/-! ### C51 -/

/-- What a receiver at `p` should measure: interpolation along both dimensions. -/
def interp2 (P : Params K) (S0 S1 : Surf K) (p : Point K) (u : ℤ × ℤ → K) : K :=
  interp P ⟨p.x, S0, p.mono || p.dim == 1⟩ fun a =>
    interp P ⟨p.y, S1, p.mono || p.dim == 0⟩ fun b => u (a, b)

omit [IsStrictOrderedRing K] in
theorem interp_zero (P : Params K) (v : Use K) : interp P v (fun _ => 0) = 0 := by
  rw [interp]
  split_ifs
  · rfl
  · refine Finset.sum_eq_zero fun c _ => ?_
    rw [odd]
    split_ifs <;> simp

theorem alone_interp {P : Params K} (hw : 1 ≤ P.halfwidth) {S0 S1 : Surf K} {dict : List (ℤ × ℤ)}
    {p : Point K} {o : PointOut K} (h : Alone P S0 S1 dict p o)
    (hp : ∀ v ∈ pointUses S0 S1 p, Placed P v) (rcd : ℕ → K) (u : ℤ × ℤ → K)
    (hu : ∀ j c, dict[j]? = some c → rcd j = u c) (hu0 : ∀ b, Vanishes S0 fun a => u (a, b))
    (hu1 : ∀ a, Vanishes S1 fun b => u (a, b)) :
    (List.zipWith (fun j w => rcd j * w) o.idxs o.weights).sum = interp2 P S0 S1 p u := by
  obtain ⟨c0, l0, w0, h0, g0⟩ := oneDim_interp hw (hp ⟨p.x, S0, p.mono || p.dim == 1⟩ (by simp [pointUses]))
  obtain ⟨c1, l1, w1, h1, g1⟩ := oneDim_interp hw (hp ⟨p.y, S1, p.mono || p.dim == 0⟩ (by simp [pointUses]))
  rw [alone_value h h0 h1 rcd u hu]
  simp only [g1 _ (hu1 _)]
  refine g0 (fun a => interp P ⟨p.y, S1, p.mono || p.dim == 0⟩ fun b => u (a, b)) ?_
  intro a ha
  have : (fun b => u (a, b)) = fun _ => 0 := funext fun b => hu0 b a ha
  dsimp only
  rw [this, interp_zero]

/-- C51: with free surfaces at cells or half-way between cells, further apart than the window is long,
and points between them, the call succeeds and the receiver at a point measures the interpolated
value, along both dimensions, of the odd continuation of the field across the free surfaces, for every
field that vanishes on them. -/
theorem C51_measures_odd_continuation {P : Params K} {S0 S1 : Surf K} {pss : List (List (Point K))}
    (h1 : 1 ≤ P.halfwidth) (h10 : P.halfwidth ≤ 10)
    (he : 0 < P.eps) (hc : (pss.flatten.flatMap (pointUses S0 S1)).Pairwise (Apart P))
    (hp : ∀ ps ∈ pss, ∀ p ∈ ps, ∀ v ∈ pointUses S0 S1 p, Placed P v) :
    ∃ H, hicks P S0 S1 pss = .ok H ∧ ∀ u : ℤ × ℤ → K, (∀ b, Vanishes S0 fun a => u (a, b)) →
      (∀ a, Vanishes S1 fun b => u (a, b)) →
      H.map (fun s => receiver s (atLocs s u)) =
        pss.map fun ps => ps.map fun p => interp2 P S0 S1 p u := by
  replace hc := hc.imp fun h => Apart.compat he h
  obtain ⟨H, hH⟩ := shots_ok h1 pss (cacheInv_empty P) hc (by
    intro ps hps p hpp v hv
    obtain ⟨c, l, w, h, -⟩ := oneDim_interp h1 (hp ps hps p hpp v hv)
    exact ⟨_, h⟩)
  refine ⟨H, by rw [hicks, if_neg (by omega), hH], fun u hu0 hu1 => ?_⟩
  have hall := (List.forall₂_and_left _ _).2
    ⟨fun ps hps => hps, shots_alone h1 pss hH (cacheInv_empty P) hc⟩
  rw [← List.forall₂_eq_eq_eq, List.forall₂_map_left_iff, List.forall₂_map_right_iff]
  refine hall.flip.imp fun s ps hss => ?_
  obtain ⟨hps, hA⟩ := hss
  rw [← List.forall₂_eq_eq_eq, receiver, List.forall₂_map_left_iff, List.forall₂_map_right_iff]
  refine ((List.forall₂_and_left _ _).2 ⟨fun p hp => hp, hA⟩).flip.imp fun o p hpo => ?_
  exact alone_interp h1 hpo.2 (hp ps hps p hpo.1) _ u (fun j c hj => atLocs_of hj) hu0 hu1

/-! ### C52 -/

/-- For a coordinate that is not negative, all distances are within the halfwidth. -/
theorem offsets_le {P : Params K} {x : K} (hx : 0 ≤ x) : ∀ t ∈ offsets P x, |t| ≤ P.halfwidth := by
  intro t ht
  obtain ⟨i, hi, rfl⟩ := List.mem_map.1 ht
  have hi' : (i : K) + 1 ≤ 2 * P.halfwidth := by
    exact_mod_cast (List.mem_range.1 hi)
  have h1 := Int.floor_le x
  have h2 := Int.lt_floor_add_one x
  rw [pyInt, if_pos hx, abs_le]
  have := Nat.cast_nonneg (α := K) i
  constructor <;> linarith

/-- C52: for coordinates that are not negative, the window function is only evaluated within the
halfwidth, where it is defined: its values elsewhere have no influence on the result. -/
theorem C52_kernel_within_window {P P' : Params K} {S0 S1 : Surf K} {pss : List (List (Point K))}
    (hh : P'.halfwidth = P.halfwidth) (he : P'.eps = P.eps)
    (hk : ∀ m (t : K), |t| ≤ P.halfwidth → P'.ker m t = P.ker m t)
    (hpos : ∀ ps ∈ pss, ∀ p ∈ ps, 0 ≤ p.x ∧ 0 ≤ p.y) : hicks P' S0 S1 pss = hicks P S0 S1 pss := by
  have hone : ∀ c x S m, 0 ≤ x → oneDim P' c x S m = oneDim P c x S m := by
    intro c x S m hx
    have ho : offsets P' x = offsets P x := by rw [offsets, offsets, hh]
    have hm : (offsets P x).map (P'.ker m) = (offsets P x).map (P.ker m) :=
      List.map_congr_left fun t ht => hk m t (offsets_le hx t ht)
    have hkey : key P' x m = key P x m := by rw [key, key, he]
    simp only [oneDim, ho, hm, hkey, he]
  have hshot : ∀ ps : List (Point K), (∀ p ∈ ps, 0 ≤ p.x ∧ 0 ≤ p.y) → ∀ c d,
      shotLoop P' S0 S1 c d ps = shotLoop P S0 S1 c d ps := by
    intro ps
    induction ps with
    | nil => exact fun _ _ _ => rfl
    | cons p ps ih =>
        intro hp c d
        obtain ⟨a, b⟩ := hp p List.mem_cons_self
        have ih' := ih fun q hq => hp q (List.mem_cons_of_mem _ hq)
        simp only [shotLoop, hone _ _ _ _ a, hone _ _ _ _ b, ih']
  have hshots : ∀ pss : List (List (Point K)), (∀ ps ∈ pss, ∀ p ∈ ps, 0 ≤ p.x ∧ 0 ≤ p.y) → ∀ c,
      shots P' S0 S1 c pss = shots P S0 S1 c pss := by
    intro pss
    induction pss with
    | nil => exact fun _ _ => rfl
    | cons ps rest ih =>
        intro hp c
        have ih' := ih fun q hq => hp q (List.mem_cons_of_mem _ hq)
        simp only [shots, hshot ps (hp ps List.mem_cons_self), ih']
  rw [hicks, hicks, hh, hshots pss hpos]

/-- C52 fails for negative coordinates, such as those of points between a free surface at -1/2 and the
first cell: the window function is evaluated beyond the halfwidth (where the formula takes the square
root of a negative number). -/
theorem C52_fails_for_negative_coordinate (ker : Bool → K → K) :
    let P : Params K := ⟨2, ker, 1 / 10 ^ 5⟩
    let p : Point K := ⟨-(3 / 10), 0, true, 0⟩
    ∃ s u, hicks P ⟨some (-1 / 2), none⟩ ⟨none, none⟩ [[p]] = .ok [s] ∧
      receiver s (atLocs s u) = [ker true (2 + 3 / 10)] := by
  intro P p
  have e1 : hicks P ⟨some (-1 / 2), none⟩ ⟨none, none⟩ [[p]] = .ok [⟨[(0, 0), (1, 0), (2, 0)],
      [⟨[0, 1, 2], [ker true (3 / 10) - ker true (-(7 / 10)), ker true (13 / 10), ker true (23 / 10)], [1]⟩]⟩] := by
    norm_num [P, p, hicks, shots, shotLoop, oneDim, pyInt, pyRound, key, offsets, foldLo, foldHi, List.range_succ,
      subSlice, bound, isclose, show Int.toNat 2 = 2 from rfl, indexAll, List.product, List.idxOf, List.findIdx]
  refine ⟨_, fun c => if c = (2, 0) then 1 else 0, e1, ?_⟩
  norm_num [PointOut.weights, atLocs, receiver]

/-! ### The hypotheses can be met -/

/-- Window function of the examples. -/
def exKer : Bool → ℚ → ℚ := fun m t => if m then 1 / (1 + t ^ 2) else t / (1 + t ^ 2)

/-- Points near a free surface on the first cell of the first dimension, near one half-way after cell 9
and near one half-way before the first cell of the second dimension; the second is a dipole. -/
def exPoints : List (List (Point ℚ)) := [[⟨1 / 2, 1 / 4, true, 0⟩], [⟨46 / 5, 7 / 3, false, 1⟩]]

def exP : Params ℚ := ⟨2, exKer, 1 / 10 ^ 5⟩

example : (exPoints.flatten.flatMap (pointUses ⟨some 0, some (19 / 2)⟩ ⟨some (-1 / 2), none⟩)).Pairwise
    (Apart exP) := by
  norm_num [exPoints, pointUses, Apart, exP, pyInt, OffGrid, pyRound, abs_lt]

example : ∀ ps ∈ exPoints, ∀ p ∈ ps, ∀ v ∈ pointUses ⟨some 0, some (19 / 2)⟩ ⟨some (-1 / 2), none⟩ p,
    Placed exP v := by
  intro ps hps p hp v hv
  have h1 : ∃ z : ℤ, (z : ℚ) = -1 := ⟨-1, by norm_num⟩
  have h2 : ∃ z : ℤ, (z : ℚ) = 19 := ⟨19, by norm_num⟩
  have h3 : ∃ z : ℤ, (z : ℚ) = 0 := ⟨0, by norm_num⟩
  simp only [exPoints, List.mem_cons, List.not_mem_nil, or_false] at hps
  rcases hps with rfl | rfl <;> obtain rfl := List.mem_singleton.1 hp <;>
    simp only [pointUses, List.mem_cons, List.not_mem_nil, or_false] at hv <;> rcases hv with rfl | rfl <;>
    constructor <;> simp <;> norm_num [exP, abs_of_pos, h1, h2, h3]

/-- The grid locations: weights are folded at all three surfaces. -/
example : (match hicks exP ⟨some 0, some (19 / 2)⟩ ⟨some (-1 / 2), none⟩ exPoints with
    | .ok H => H.map fun s => s.locs.length
    | .error _ => []) = [9, 8] := by decide +kernel

end Dw.Hicks
