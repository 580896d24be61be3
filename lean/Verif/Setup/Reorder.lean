import Verif.Setup.Exchange
import Verif.Props.UserScheme

/-!
# Order of locations, and entries that are ignored

Two tensors of locations that have the same locations for every shot, in another order and with entries equal to
`IGNORE_LOCATION` in between; `setup_propagator` accepts both and plans the same grid.
-/

namespace Dw.Setup

open Scalar (upAmps upS WholeIgnored)

variable {d : ℕ}

/-- Location `i` of shot `s` is location `e s i` of the other tensor; all others of that tensor are ignored. -/
structure LocT.Into (e : ℕ → ℕ → ℕ) (l l' : LocT) : Prop where
  nb : l'.nb = l.nb
  nd : l'.nd = l.nd
  lt : ∀ s, ∀ i < l.n, e s i < l'.n
  inj : ∀ s, ∀ i < l.n, ∀ j < l.n, e s i = e s j → i = j
  val : ∀ s, ∀ i < l.n, ∀ k, l'.val s (e s i) k = l.val s i k
  rest : ∀ s, ∀ j < l'.n, (∀ i < l.n, e s i ≠ j) → ∀ k, l'.val s j k = (ignoreLocation : ℚ)

/-- The amplitudes for such locations; those of ignored locations are arbitrary. -/
structure AmpT.Into (e : ℕ → ℕ → ℕ) (a a' : AmpT) : Prop where
  nb : a'.nb = a.nb
  nt : a'.nt = a.nt
  val : ∀ s, ∀ i < a.n, ∀ t, a'.val s (e s i) t = a.val s i t

/-- The same numbers that are not ignored. -/
def LocT.Same (l l' : LocT) : Prop := l'.nd = l.nd ∧ ∀ k x, x ∈ l'.active k ↔ x ∈ l.active k

variable {e : ℕ → ℕ → ℕ} {l l' : LocT}

/-- A location of the other tensor is one of the first or ignored. -/
theorem LocT.Into.cases (h : l.Into e l') (s : ℕ) {j : ℕ} (hj : j < l'.n) :
    (∃ i < l.n, e s i = j) ∨ (∀ i < l.n, e s i ≠ j) ∧ ∀ k, l'.val s j k = (ignoreLocation : ℚ) := by
  by_cases hx : ∃ i < l.n, e s i = j
  · exact .inl hx
  · have : ∀ i < l.n, e s i ≠ j := fun i hi he => hx ⟨i, hi, he⟩
    exact .inr ⟨this, h.rest s j hj this⟩

theorem LocT.Into.same (h : l.Into e l') : l.Same l' := by
  refine ⟨h.nd, fun k x => ?_⟩
  rw [LocT.mem_active, LocT.mem_active, h.nb]
  constructor
  · rintro ⟨s, hs, j, hj, rfl, hx⟩
    rcases h.cases s hj with ⟨i, hi, rfl⟩ | ⟨-, hr⟩
    · exact ⟨s, hs, i, hi, (h.val s i hi k).symm, hx⟩
    · exact absurd (hr k) hx
  · rintro ⟨s, hs, i, hi, rfl, hx⟩
    exact ⟨s, hs, e s i, h.lt s i hi, h.val s i hi k, hx⟩

/-! ### Extents -/

theorem extremeLoop_ok' {left : Bool} {pad : ℤ} {k : ℕ} {n : ℤ} {ls : List (Option LocT)} {e : ℤ} :
    (∃ r, extremeLoop left pad k n ls e = .ok r) ↔ ∀ l, some l ∈ ls →
      ¬l.nd ≤ k ∧ ∀ x ∈ l.active k, 0 ≤ x ∧ x < n := by
  rw [extremeLoop_ok]
  refine forall₂_congr fun l _ => and_congr_right fun _ => ?_
  constructor
  · rintro (h | ⟨h1, h2⟩) x hx
    · rw [List.isEmpty_iff.1 h] at hx
      cases hx
    · exact ⟨(not_lt.1 h1).trans (minOf_le hx), (le_maxOf hx).trans_lt (not_le.1 h2)⟩
  · intro h
    by_cases he : l.active k = []
    · exact .inl (by rw [he]; rfl)
    · exact .inr ⟨not_lt.2 (h _ (minOf_mem he)).1, not_le.2 (h _ (maxOf_mem he)).2⟩

/-- The same locations, in other tensors. -/
structure SameLocs (ls ls' : List (Option LocT)) : Prop where
  fwd : ∀ l, some l ∈ ls → ∃ l', some l' ∈ ls' ∧ l.Same l'
  back : ∀ l', some l' ∈ ls' → ∃ l, some l ∈ ls ∧ l.Same l'

variable {ls ls' : List (Option LocT)}

theorem extremeLoop_same (hm : SameLocs ls ls') {left : Bool} {pad : ℤ} {k : ℕ} {n : ℤ} {e r : ℤ}
    (h : extremeLoop left pad k n ls e = .ok r) : extremeLoop left pad k n ls' e = .ok r := by
  obtain ⟨r', h'⟩ := (extremeLoop_ok' (left := left) (pad := pad) (e := e)).2 fun l' hl' => by
    obtain ⟨l, hl, hn, ha⟩ := hm.back l' hl'
    have := extremeLoop_ok'.1 ⟨r, h⟩ l hl
    exact ⟨by rw [hn]; exact this.1, fun x hx => this.2 x ((ha k x).1 hx)⟩
  rw [h']
  congr 1
  cases left with
  | true =>
      obtain ⟨-, h1, h2, h3⟩ := extremeLoop_left h
      obtain ⟨-, h1', h2', h3'⟩ := extremeLoop_left h'
      refine le_antisymm ?_ ?_
      · rcases h3 with rfl | ⟨l, hl, x, hx, rfl⟩
        · exact h1'
        · obtain ⟨l', hl', -, ha⟩ := hm.fwd l hl
          exact h2' l' hl' x ((ha k x).2 hx)
      · rcases h3' with rfl | ⟨l', hl', x, hx, rfl⟩
        · exact h1
        · obtain ⟨l, hl, -, ha⟩ := hm.back l' hl'
          exact h2 l hl x ((ha k x).1 hx)
  | false =>
      obtain ⟨-, h1, h2, h3⟩ := extremeLoop_right h
      obtain ⟨-, h1', h2', h3'⟩ := extremeLoop_right h'
      refine le_antisymm ?_ ?_
      · rcases h3' with rfl | ⟨l', hl', x, hx, rfl⟩
        · exact h1
        · obtain ⟨l, hl, -, ha⟩ := hm.back l' hl'
          exact h2 l hl x ((ha k x).1 hx)
      · rcases h3 with rfl | ⟨l, hl, x, hx, rfl⟩
        · exact h1'
        · obtain ⟨l', hl', -, ha⟩ := hm.fwd l hl
          exact h2' l' hl' x ((ha k x).2 hx)

/-- The extents depend only on the locations. -/
theorem surveyExtents_same {shape : Fin d → ℤ} (hm : SameLocs ls ls') {wfs : List (Option (Fin d → ℤ))}
    {sp : SurveyPad} {origin : Option (List ℤ)} {w0 w1 : Fin d → ℤ} {ext : Fin d → ℤ × ℤ}
    (h : surveyExtents shape ls wfs sp origin w0 w1 = .ok ext) :
    surveyExtents shape ls' wfs sp origin w0 w1 = .ok ext := by
  have hc : ∀ u, checkLocationsWithinModel shape ls = .ok u → checkLocationsWithinModel shape ls' = .ok u := by
    intro u hu
    have := checkLocationsWithinModel_iff.1 hu
    refine checkLocationsWithinModel_iff.2 ⟨this.1, fun l' hl' k => ?_⟩
    obtain ⟨l, hl, hn, ha⟩ := hm.back l' hl'
    exact ⟨by rw [hn]; exact (this.2 l hl k).1, fun x hx => (this.2 l hl k).2 x ((ha k x).1 hx)⟩
  have hx : ∀ ext u, checkLocationsWithinExtents ext ls = .ok u →
      checkLocationsWithinExtents (d := d) ext ls' = .ok u := by
    intro ext u hu
    refine checkLocationsWithinExtents_iff.2 fun l' hl' k hk => ?_
    obtain ⟨l, hl, hn, ha⟩ := hm.back l' hl'
    obtain ⟨h1, h2, h3⟩ := checkLocationsWithinExtents_iff.1 hu l hl k (by rw [← hn]; exact hk)
    refine ⟨fun h => ?_, h2, fun x hx => h3 x ((ha k x).1 hx)⟩
    obtain ⟨x, hx⟩ := List.exists_mem_of_ne_nil _ h1
    have := (ha k x).2 hx
    rw [h] at this
    cases this
  have hany : ls'.any Option.isSome = ls.any Option.isSome := by
    rw [Bool.eq_iff_iff, List.any_eq_true, List.any_eq_true]
    constructor
    · rintro ⟨x, h1, h2⟩
      obtain ⟨l, rfl⟩ := Option.isSome_iff_exists.1 h2
      obtain ⟨l', hl', -⟩ := hm.back l h1
      exact ⟨_, hl', rfl⟩
    · rintro ⟨x, h1, h2⟩
      obtain ⟨l, rfl⟩ := Option.isSome_iff_exists.1 h2
      obtain ⟨l', hl', -⟩ := hm.fwd l h1
      exact ⟨_, hl', rfl⟩
  have hs : ∀ p left k n e, extentOneSide p left k ls n = .ok e → extentOneSide p left k ls' n = .ok e := by
    intro p left k n e he
    unfold extentOneSide at he ⊢
    rw [hany]
    by_cases hq : p < 0 ∨ ¬(ls.any Option.isSome) = true
    · rw [if_pos hq] at he ⊢
      exact he
    · rw [if_neg hq] at he ⊢
      cases h1 : extremeLoop left p k n ls (if left then n else 0) with
      | error x => rw [h1] at he; cases he
      | ok x => rw [h1] at he; rw [extremeLoop_same hm h1]; exact he
  have hl : ∀ ext, extentsFromLocations shape ls sp = .ok ext →
      extentsFromLocations (d := d) shape ls' sp = .ok ext := by
    intro ext he
    unfold extentsFromLocations at he ⊢
    split at he
    · cases he
    · split at he
      · cases he
      · rename_i pads _
        rw [forDims_ok] at he ⊢
        intro k
        have := he k
        cases h1 : extentOneSide (pads.getD (2 * k) 0) true k ls (shape k) with
        | error x => simp only [h1] at this; cases this
        | ok x =>
            cases h2 : extentOneSide (pads.getD (2 * k + 1) 0) false k ls (shape k) with
            | error x => simp only [h1, h2] at this; cases this
            | ok y =>
                simp only [h1, h2] at this
                simp only [hs _ _ _ _ _ h1, hs _ _ _ _ _ h2]
                exact this
  unfold surveyExtents at h ⊢
  simp only at h ⊢
  split_ifs at h ⊢ with h1 h2
  · split at h
    · cases h
    · rename_i u hu
      rw [hc u hu]
      simp only
      split at h
      · cases h
      · split at h
        · cases h
        · split at h
          · cases h
          · rename_i hv
            rw [hx _ _ hv]
            exact h
  · split at h
    · cases h
    · rename_i u hu
      rw [hc u hu]
      simp only
      split at h
      · cases h
      · rename_i hv
        rw [hl _ hv]
        exact h

/-! ### The setup -/

theorem LocT.Into.cell (h : l.Into e l') (s : ℕ) {i : ℕ} (hi : i < l.n) : l'.cell d s (e s i) = l.cell d s i := by
  unfold LocT.cell
  simp only [h.val s i hi]

theorem activeIdx_nodup {t : IdxT} {s : ℕ} : (activeIdx t s).Nodup ↔ ∀ i < t.n, ∀ j < t.n,
    t.val s i ≠ ignoreLocation → t.val s j ≠ ignoreLocation → t.val s i = t.val s j → i = j := by
  unfold activeIdx
  rw [List.filter_map, List.nodup_map_iff_inj_on (List.nodup_range.filter _)]
  simp only [List.mem_filter, List.mem_range, Function.comp, decide_eq_true_eq]
  exact ⟨fun h i hi j hj h1 h2 h3 => h i ⟨hi, h1⟩ j ⟨hj, h2⟩ h3,
    fun h i hi j hj h3 => h i hi.1 j hj.1 hi.2 hj.2 h3⟩

/-- A tensor is accepted if the other one is. -/
theorem LocT.Into.good (h : l.Into e l') {eps : ℚ} (heps : 0 ≤ eps) {ext : Fin d → ℤ × ℤ} {p0 p1 : Fin d → ℤ} {nb : ℕ}
    (hd : 0 < d) (hg : LocGood eps ext p0 p1 nb l) : LocGood eps ext p0 p1 nb l' where
  close := by
    intro s hs j hj k hk
    rcases h.cases s hj with ⟨i, hi, rfl⟩ | ⟨-, hr⟩
    · rw [h.val s i hi]
      exact hg.close s (h.nb ▸ hs) i hi k (h.nd ▸ hk)
    · rw [hr k, trunc_int, sub_self, abs_zero]
      exact heps
  batch := h.nb.trans hg.batch
  nd := h.nd.trans hg.nd
  nodup := by
    intro s hs
    have hg' := activeIdx_nodup.1 (hg.nodup s hs)
    have hval : ∀ i < l.n, (idxOf ext p0 p1 l').val s (e s i) = (idxOf ext p0 p1 l).val s i := fun i hi => by
      unfold idxOf
      simp only [h.cell s hi]
    have hign : ∀ j, (∀ k, l'.val s j k = (ignoreLocation : ℚ)) → (idxOf ext p0 p1 l').val s j = ignoreLocation := by
      intro j hj
      unfold idxOf LocT.cell location1d
      simp [hj, trunc_int, hd]
    refine activeIdx_nodup.2 fun j hj j' hj' h1 h2 h3 => ?_
    rcases h.cases s hj with ⟨i, hi, rfl⟩ | ⟨-, hr⟩
    · rcases h.cases s hj' with ⟨i', hi', rfl⟩ | ⟨-, hr⟩
      · rw [hval i hi] at h1 h3
        rw [hval i' hi'] at h2 h3
        rw [hg' i hi i' hi' h1 h2 h3]
      · exact absurd (hign _ hr) h2
    · exact absurd (hign _ hr) h1

/-- The tensors of two calls. -/
structure Rearranged (es : ℕ → ℕ → ℕ → ℕ) (ls ls' : List (Option LocT)) : Prop where
  len : ls'.length = ls.length
  rel : ∀ (j : ℕ) (o o' : Option LocT), ls[j]? = some o → ls'[j]? = some o' → Option.Rel (LocT.Into (es j)) o o'

theorem Rearranged.back {es : ℕ → ℕ → ℕ → ℕ} (h : Rearranged es ls ls') {l' : LocT} (hl : some l' ∈ ls') :
    ∃ (j : ℕ) (l : LocT), ls[j]? = some (some l) ∧ ls'[j]? = some (some l') ∧ l.Into (es j) l' := by
  obtain ⟨j, hj⟩ := List.mem_iff_getElem?.1 hl
  have hlt := (List.getElem?_eq_some_iff.1 hj).1
  rw [h.len] at hlt
  have := h.rel j _ _ (List.getElem?_eq_getElem hlt) hj
  generalize ho : ls[j] = o at this
  cases this with
  | some hr => exact ⟨j, _, by rw [List.getElem?_eq_getElem hlt, ho], hj, hr⟩

theorem Rearranged.fwd {es : ℕ → ℕ → ℕ → ℕ} (h : Rearranged es ls ls') {l : LocT} (hl : some l ∈ ls) :
    ∃ (j : ℕ) (l' : LocT), ls[j]? = some (some l) ∧ ls'[j]? = some (some l') ∧ l.Into (es j) l' := by
  obtain ⟨j, hj⟩ := List.mem_iff_getElem?.1 hl
  have hlt := (List.getElem?_eq_some_iff.1 hj).1
  rw [← h.len] at hlt
  have := h.rel j _ _ hj (List.getElem?_eq_getElem hlt)
  generalize ho : ls'[j] = o at this
  cases this with
  | some hr => exact ⟨j, _, hj, by rw [List.getElem?_eq_getElem hlt, ho], hr⟩

theorem Rearranged.append {es er : ℕ → ℕ → ℕ → ℕ} {rs rs' : List (Option LocT)} (h : Rearranged es ls ls')
    (h' : Rearranged er rs rs') : SameLocs (ls ++ rs) (ls' ++ rs') where
  fwd := by
    intro l hl
    rcases List.mem_append.1 hl with hl | hl
    · obtain ⟨j, l', -, h2, h3⟩ := h.fwd hl
      exact ⟨l', List.mem_append_left _ (List.mem_of_getElem? h2), h3.same⟩
    · obtain ⟨j, l', -, h2, h3⟩ := h'.fwd hl
      exact ⟨l', List.mem_append_right _ (List.mem_of_getElem? h2), h3.same⟩
  back := by
    intro l hl
    rcases List.mem_append.1 hl with hl | hl
    · obtain ⟨j, l', h1, -, h3⟩ := h.back hl
      exact ⟨l', List.mem_append_left _ (List.mem_of_getElem? h1), h3.same⟩
    · obtain ⟨j, l', h1, -, h3⟩ := h'.back hl
      exact ⟨l', List.mem_append_right _ (List.mem_of_getElem? h1), h3.same⟩

/-- The amplitudes of two calls. -/
structure RearrangedAmps (es : ℕ → ℕ → ℕ → ℕ) (as as' : List (Option AmpT)) : Prop where
  len : as'.length = as.length
  rel : ∀ (j : ℕ) (o o' : Option AmpT), as[j]? = some o → as'[j]? = some o' → Option.Rel (AmpT.Into (es j)) o o'

theorem map_eq_of_rel {α β : Type*} {xs xs' : List (Option α)} {R : ℕ → α → α → Prop} (hlen : xs'.length = xs.length)
    (h : ∀ (j : ℕ) (o o' : Option α), xs[j]? = some o → xs'[j]? = some o' → Option.Rel (R j) o o') (f : α → β)
    (hf : ∀ j x x', R j x x' → f x' = f x) : xs'.map (Option.map f) = xs.map (Option.map f) := by
  refine List.ext_getElem (by simp [hlen]) fun j h1 h2 => ?_
  simp only [List.length_map] at h1 h2
  have := h j _ _ (List.getElem?_eq_getElem h2) (List.getElem?_eq_getElem h1)
  simp only [List.getElem_map]
  generalize xs[j] = o at this
  generalize xs'[j] = o' at this
  cases this with
  | some hr => exact congrArg some (hf j _ _ hr)
  | none => rfl

theorem checkAmps_map (amps : List (Option AmpT)) (nb : ℕ) (nt ratio : ℤ) (ff tf : ℚ) :
    checkAmps amps nb nt ratio ff tf = firstErr (((amps.map (Option.map fun a => (a.nb, a.nt))).filterMap id).flatMap
      fun a => [raiseIf (a.1 ≠ nb) .runtimeError, raiseIf (a.2 * ratio ≠ nt) .runtimeError,
        Resample.validate ratio ff tf]) := by
  rw [checkAmps_filter, filterMap_map_id, List.flatMap_map]

theorem checkAmpsMatch_iff {as ls : List (Option ℕ)} : checkAmpsMatch as ls = .ok () ↔
    as.length = ls.length ∧ ∀ (j : ℕ) (x y : Option ℕ), as[j]? = some x → ls[j]? = some y → x = y := by
  unfold checkAmpsMatch
  by_cases hlen : as.length = ls.length
  · rw [if_neg (not_not.2 hlen), firstErr_ok]
    refine ⟨fun h => ⟨hlen, fun j x y hx hy => ?_⟩, fun h r hr => ?_⟩
    · have := h _ (List.mem_map.2 ⟨(x, y), List.mem_of_getElem? (i := j)
        (List.getElem?_zip_eq_some.2 ⟨hx, hy⟩), rfl⟩)
      cases x <;> cases y
      · rfl
      · cases this
      · cases this
      · exact congrArg some (not_not.1 (raiseIf_ok.1 this))
    · obtain ⟨⟨x, y⟩, hp, rfl⟩ := List.mem_map.1 hr
      obtain ⟨j, hj⟩ := List.mem_iff_getElem?.1 hp
      obtain ⟨h1, h2⟩ := List.getElem?_zip_eq_some.1 hj
      obtain rfl := h.2 j x y h1 h2
      cases x with
      | none => rfl
      | some x => exact raiseIf_ok.2 (by simp)
  · rw [if_pos hlen]
    exact ⟨fun h => (by cases h), fun h => absurd h.1 hlen⟩

/-- The call with the other tensors is accepted, with the same grid. -/
theorem good_rearranged {A : SetupArgs d} {P : Plan d} (h : A.Good P) (heps : 0 ≤ A.eps) (hd : 0 < d)
    {es er : ℕ → ℕ → ℕ → ℕ} {srcs rcvs : List (Option LocT)} {amps : List (Option AmpT)}
    (hs : Rearranged es A.srcs srcs) (hr : Rearranged er A.rcvs rcvs) (ha : RearrangedAmps es A.amps amps)
    (hn : ∀ (j : ℕ) (a : AmpT) (l : LocT), amps[j]? = some (some a) → srcs[j]? = some (some l) → a.n = l.n) :
    (A.moved srcs rcvs amps).Good (P.moved A.staggered srcs rcvs) :=
  { h with
    nb := by
      have e := map_eq_of_rel hs.len hs.rel LocT.nb fun _ _ _ h => h.nb
      have hnb := h.nb
      show getNBatch srcs A.wfs = .ok P.nb
      unfold getNBatch at hnb ⊢
      have key : ∀ x : List (Option LocT), x.filterMap (Option.map LocT.nb) = (x.map (Option.map LocT.nb)).filterMap id :=
        fun x => by rw [List.filterMap_map]; rfl
      rw [key, e, ← key]
      exact hnb
    nt := by
      have e := map_eq_of_rel ha.len ha.rel AmpT.nt fun _ _ _ h => h.nt
      show setNt A.nt (amps.map (Option.map AmpT.nt)) P.ratio = .ok P.nt
      rw [e]
      exact h.nt
    ampsMatch := by
      show checkAmpsMatch (amps.map (Option.map AmpT.n)) (srcs.map (Option.map LocT.n)) = .ok ()
      obtain ⟨h1, h2⟩ := checkAmpsMatch_iff.1 h.ampsMatch
      simp only [List.length_map] at h1
      refine checkAmpsMatch_iff.2 ⟨by simp only [List.length_map, ha.len, hs.len, h1], fun j x y hx hy => ?_⟩
      rw [List.getElem?_map] at hx hy
      obtain ⟨o', ho', rfl⟩ := Option.map_eq_some_iff.1 hx
      obtain ⟨q', hq', rfl⟩ := Option.map_eq_some_iff.1 hy
      have l1 := (List.getElem?_eq_some_iff.1 ho').1
      have l2 := (List.getElem?_eq_some_iff.1 hq').1
      rw [ha.len] at l1
      rw [hs.len] at l2
      have r1 := ha.rel j _ _ (List.getElem?_eq_getElem l1) ho'
      have r2 := hs.rel j _ _ (List.getElem?_eq_getElem l2) hq'
      have r3 := h2 j (A.amps[j].map AmpT.n) (A.srcs[j].map LocT.n) (by simp [l1]) (by simp [l2])
      generalize A.amps[j] = o at r1 r3
      generalize A.srcs[j] = q at r2 r3
      cases r1 with
      | none =>
          cases r2 with
          | none => rfl
          | some hr => cases r3
      | some _ =>
          cases r2 with
          | none => cases r3
          | some _ => exact congrArg some (hn j _ _ ho' hq')
    amps := by
      have e := map_eq_of_rel ha.len ha.rel (fun a => (a.nb, a.nt)) fun _ _ _ h => by rw [h.nb, h.nt]
      show checkAmps amps P.nb P.nt P.ratio P.ff P.tf = .ok ()
      rw [checkAmps_map, e, ← checkAmps_map]
      exact h.amps
    ext := surveyExtents_same (hs.append hr) h.ext
    srcs := by
      refine extractLocations_iff.2 ⟨fun l' hl' => ?_, rfl⟩
      obtain ⟨j, l, h1, -, h3⟩ := hs.back hl'
      exact h3.good heps hd ((extractLocations_iff.1 h.srcs).1 l (List.mem_of_getElem? h1))
    rcvs := by
      refine extractLocations_iff.2 ⟨fun l' hl' => ?_, rfl⟩
      obtain ⟨j, l, h1, -, h3⟩ := hr.back hl'
      exact h3.good heps hd ((extractLocations_iff.1 h.rcvs).1 l (List.mem_of_getElem? h1)) }

/-! ### In the coordinates of the model -/

theorem LocT.Into.ignored (h : l.Into e l') (s : ℕ) {i : ℕ} (hi : i < l.n) :
    l'.Ignored d s (e s i) ↔ l.Ignored d s i := by
  unfold LocT.Ignored
  simp only [h.val s i hi]

theorem LocT.Into.whole (h : l.Into e l') {s : ℕ} (hw : WholeIgnored d l s) : WholeIgnored d l' s := by
  intro j hj
  rcases h.cases s hj with ⟨i, hi, rfl⟩ | ⟨-, hr⟩
  · refine (hw i hi).imp (h.ignored s hi).2 fun h' k hk => ?_
    rw [h.val s i hi]
    exact h' k hk
  · exact .inl fun k _ => hr k

theorem LocT.Into.cell_loc (h : l.Into e l') (s : ℕ) {i : ℕ} (hi : i < l.n) :
    locCell (d := d) (some l') s (e s i) = locCell (some l) s i := by
  classical
  unfold locCell
  simp only [h.val s i hi]
  exact if_congr (h.ignored s hi) rfl rfl

theorem LocT.Into.cell_rest (h : l.Into e l') (s : ℕ) {j : ℕ} (hj : j < l'.n) (hr : ∀ i < l.n, e s i ≠ j) :
    locCell (d := d) (some l') s j = none := by
  unfold locCell
  exact if_pos fun k _ => h.rest s j hj hr k

/-- The same tensor of locations in the two calls, as far as it matters. -/
abbrev LocRel (e : ℕ → ℕ → ℕ) (o o' : Option LocT) : Prop := Option.Rel (LocT.Into e) o o'

theorem LocRel.value {o o' : Option LocT} (h : LocRel e o o') (s : ℕ) {i : ℕ} (hi : i < locCount o) (u : Fld d ℝ) :
    locValue o' s (e s i) u = locValue o s i u := by
  cases h with
  | none => cases hi
  | some h =>
      unfold locValue
      rw [h.cell_loc s hi]

theorem LocRel.lt {o o' : Option LocT} (h : LocRel e o o') (s : ℕ) {i : ℕ} (hi : i < locCount o) :
    e s i < locCount o' := by
  cases h with
  | none => cases hi
  | some h => exact h.lt s i hi

theorem LocRel.value_rest {o o' : Option LocT} (h : LocRel e o o') (s : ℕ) {j : ℕ} (hj : j < locCount o')
    (hr : ∀ i < locCount o, e s i ≠ j) (u : Fld d ℝ) : locValue o' s j u = 0 := by
  cases h with
  | none => cases hj
  | some h =>
      unfold locValue
      rw [h.cell_rest s hj hr]

theorem LocRel.sum {o o' : Option LocT} (h : LocRel e o o') (s : ℕ) {g g' : ℕ → ℝ}
    (hg : ∀ i < locCount o, g' (e s i) = g i) (c : Cell d) : locSum o' s g' c = locSum o s g c := by
  classical
  cases h with
  | none => rfl
  | @some l l' h =>
      unfold locSum
      refine (Finset.sum_of_injOn (e s) ?_ ?_ ?_ ?_).symm
      · intro i hi j hj
        exact h.inj s i (Finset.mem_range.1 hi) j (Finset.mem_range.1 hj)
      · intro i hi
        exact Finset.mem_coe.2 (Finset.mem_range.2 (h.lt s i (Finset.mem_range.1 hi)))
      · intro j hj hn
        rw [h.cell_rest s (Finset.mem_range.1 hj) fun i hi he =>
          hn ⟨i, Finset.mem_coe.2 (Finset.mem_range.2 hi), he⟩]
        rfl
      · intro i hi
        have := Finset.mem_range.1 hi
        rw [h.cell_loc s this, hg i this]

theorem upAmps_into {P : Plan d} {tt : Bool} {a a' : Option AmpT} (h : Option.Rel (AmpT.Into e) a a') (s t : ℕ) {i : ℕ}
    (hi : ∀ x, a = some x → i < x.n) : upAmps P tt a' s t (e s i) = upAmps P tt a s t i := by
  cases h with
  | none => rfl
  | @some a a' h =>
      unfold upAmps
      have : a'.val s (e s i) = a.val s i := funext fun t => h.val s i (hi a rfl) t
      simp only [this, h.nt]

end Dw.Setup
