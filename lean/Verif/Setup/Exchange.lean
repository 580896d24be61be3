import Verif.Props.ScalarUserMore
import Verif.Setup.Shot

/-!
# Exchange of sources and receivers

`setup_propagator` accepts a survey with sources and receivers exchanged and plans the same grid for it.
-/

namespace Dw.Setup

open Scalar (upAmps)

variable {d : ℕ}

theorem extremeLoop_ok {left : Bool} {pad : ℤ} {k : ℕ} {n : ℤ} : ∀ {ls : List (Option LocT)} {e : ℤ},
    (∃ r, extremeLoop left pad k n ls e = .ok r) ↔ ∀ l, some l ∈ ls →
      ¬l.nd ≤ k ∧ ((l.active k).isEmpty = true ∨ ¬minOf (l.active k) < 0 ∧ ¬(n : ℚ) ≤ maxOf (l.active k))
  | [], e => by simp [extremeLoop]
  | none :: ls, e => by
      simp only [extremeLoop, List.mem_cons, reduceCtorEq, false_or]
      exact extremeLoop_ok
  | some l :: ls, e => by
      simp only [extremeLoop, List.mem_cons, Option.some.injEq, forall_eq_or_imp]
      by_cases h1 : l.nd ≤ k
      · simp [h1]
      rw [if_neg h1]
      by_cases h2 : (l.active k).isEmpty = true
      · simp only [h1, h2, if_true, not_false_iff, true_or, true_and]
        exact extremeLoop_ok
      rw [if_neg h2]
      by_cases h3 : minOf (l.active k) < 0
      · simp [h2, h3]
      rw [if_neg h3]
      by_cases h4 : (n : ℚ) ≤ maxOf (l.active k)
      · simp [h2, h4]
      rw [if_neg h4]
      simp only [h1, h3, h4, not_false_iff, true_and, and_self, or_true]
      exact extremeLoop_ok

theorem extremeLoop_set {left : Bool} {pad : ℤ} {k : ℕ} {n : ℤ} {ls ls' : List (Option LocT)}
    (hm : ∀ l, some l ∈ ls' ↔ some l ∈ ls) {e r : ℤ} (h : extremeLoop left pad k n ls e = .ok r) :
    extremeLoop left pad k n ls' e = .ok r := by
  obtain ⟨r', h'⟩ := extremeLoop_ok.2 fun l hl => extremeLoop_ok.1 ⟨r, h⟩ l ((hm l).1 hl)
  rw [h']
  congr 1
  cases left with
  | true =>
      obtain ⟨-, h1, h2, h3⟩ := extremeLoop_left h
      obtain ⟨-, h1', h2', h3'⟩ := extremeLoop_left h'
      refine le_antisymm ?_ ?_
      · rcases h3 with rfl | ⟨l, hl, x, hx, rfl⟩
        · exact h1'
        · exact h2' l ((hm l).2 hl) x hx
      · rcases h3' with rfl | ⟨l, hl, x, hx, rfl⟩
        · exact h1
        · exact h2 l ((hm l).1 hl) x hx
  | false =>
      obtain ⟨-, h1, h2, h3⟩ := extremeLoop_right h
      obtain ⟨-, h1', h2', h3'⟩ := extremeLoop_right h'
      refine le_antisymm ?_ ?_
      · rcases h3' with rfl | ⟨l, hl, x, hx, rfl⟩
        · exact h1
        · exact h2 l ((hm l).1 hl) x hx
      · rcases h3 with rfl | ⟨l, hl, x, hx, rfl⟩
        · exact h1'
        · exact h2' l ((hm l).2 hl) x hx

/-- The extents do not depend on the order of the location tensors and on repetitions. -/
theorem surveyExtents_set {shape : Fin d → ℤ} {ls ls' : List (Option LocT)} (hm : ∀ l, some l ∈ ls' ↔ some l ∈ ls)
    {wfs : List (Option (Fin d → ℤ))}
    {sp : SurveyPad} {origin : Option (List ℤ)} {w0 w1 : Fin d → ℤ} {ext : Fin d → ℤ × ℤ}
    (h : surveyExtents shape ls wfs sp origin w0 w1 = .ok ext) :
    surveyExtents shape ls' wfs sp origin w0 w1 = .ok ext := by
  have hc : ∀ u, checkLocationsWithinModel shape ls = .ok u → checkLocationsWithinModel shape ls' = .ok u := by
    intro u hu
    refine checkLocationsWithinModel_iff.2 ?_
    have := checkLocationsWithinModel_iff.1 hu
    exact ⟨this.1, fun l hl => this.2 l ((hm l).1 hl)⟩
  have hx : ∀ ext u, checkLocationsWithinExtents ext ls = .ok u →
      checkLocationsWithinExtents (d := d) ext ls' = .ok u := by
    intro ext u hu
    refine checkLocationsWithinExtents_iff.2 fun l hl => ?_
    exact checkLocationsWithinExtents_iff.1 hu l ((hm l).1 hl)
  have hany : ls'.any Option.isSome = ls.any Option.isSome := by
    rw [Bool.eq_iff_iff, List.any_eq_true, List.any_eq_true]
    constructor
    · rintro ⟨x, h1, h2⟩
      obtain ⟨l, rfl⟩ := Option.isSome_iff_exists.1 h2
      exact ⟨_, (hm l).1 h1, h2⟩
    · rintro ⟨x, h1, h2⟩
      obtain ⟨l, rfl⟩ := Option.isSome_iff_exists.1 h2
      exact ⟨_, (hm l).2 h1, h2⟩
  have hs : ∀ p left k n e, extentOneSide p left k ls n = .ok e → extentOneSide p left k ls' n = .ok e := by
    intro p left k n e he
    unfold extentOneSide at he ⊢
    rw [hany]
    by_cases hq : p < 0 ∨ ¬(ls.any Option.isSome) = true
    · rw [if_pos hq] at he ⊢
      exact he
    · rw [if_neg hq] at he ⊢
      cases h1 : extremeLoop left p k n ls (if left then n else 0) with
      | error x => rw [h1] at he; cases he
      | ok x => rw [h1] at he; rw [extremeLoop_set hm h1]; exact he
  have hl : ∀ ext, extentsFromLocations shape ls sp = .ok ext →
      extentsFromLocations (d := d) shape ls' sp = .ok ext := by
    intro ext he
    unfold extentsFromLocations at he ⊢
    split at he
    · cases he
    · split at he
      · cases he
      · rename_i pads _
        rw [forDims_ok] at he ⊢
        intro k
        have := he k
        cases h1 : extentOneSide (pads.getD (2 * k) 0) true k ls (shape k) with
        | error x => simp only [h1] at this; cases this
        | ok x =>
            cases h2 : extentOneSide (pads.getD (2 * k + 1) 0) false k ls (shape k) with
            | error x => simp only [h1, h2] at this; cases this
            | ok y =>
                simp only [h1, h2] at this
                simp only [hs _ _ _ _ _ h1, hs _ _ _ _ _ h2]
                exact this
  unfold surveyExtents at h ⊢
  simp only at h ⊢
  split_ifs at h ⊢ with h1 h2
  · split at h
    · cases h
    · rename_i u hu
      rw [hc u hu]
      simp only
      split at h
      · cases h
      · split at h
        · cases h
        · split at h
          · cases h
          · rename_i hv
            rw [hx _ _ hv]
            exact h
  · split at h
    · cases h
    · rename_i u hu
      rw [hc u hu]
      simp only
      split at h
      · cases h
      · rename_i hv
        rw [hl _ hv]
        exact h

theorem filterMap_map_id {α β : Type*} (f : α → β) (l : List (Option α)) :
    (l.map (Option.map f)).filterMap id = (l.filterMap id).map f := by
  induction l with
  | nil => rfl
  | cons a l ih => cases a <;> simp_all

theorem checkAmps_filter (amps : List (Option AmpT)) (nb : ℕ) (nt ratio : ℤ) (ff tf : ℚ) :
    checkAmps amps nb nt ratio ff tf = firstErr ((amps.filterMap id).flatMap fun a =>
      [raiseIf (a.nb ≠ nb) .runtimeError, raiseIf (a.nt * ratio ≠ nt) .runtimeError,
        Resample.validate ratio ff tf]) := by
  unfold checkAmps
  congr 1
  induction amps with
  | nil => rfl
  | cons a l ih => cases a <;> simp_all

/-- The same locations used for other purposes. -/
def SetupArgs.moved (A : SetupArgs d) (srcs rcvs : List (Option LocT)) (amps : List (Option AmpT)) : SetupArgs d :=
  { A with srcs := srcs, rcvs := rcvs, amps := amps }

/-- The plan for this. -/
def Plan.moved (P : Plan d) (staggered : Bool) (srcs rcvs : List (Option LocT)) : Plan d :=
  { P with
    srcs := srcs.map (idxOpt P.ext (padBegin P.accZ P.wL) (padEnd staggered P.accZ P.wL) P.nb)
    rcvs := rcvs.map (idxOpt P.ext (padBegin P.accZ P.wL) (padEnd staggered P.accZ P.wL) P.nb) }

theorem good_moved {A : SetupArgs d} {P : Plan d} (h : A.Good P) {srcs rcvs : List (Option LocT)}
    (hl : ∀ l, some l ∈ srcs ++ rcvs ↔ some l ∈ A.srcs ++ A.rcvs) (hr : ∃ l, some l ∈ srcs)
    (amps : List (Option AmpT)) (ha : amps.filterMap id = A.amps.filterMap id)
    (hm : checkAmpsMatch (amps.map (Option.map AmpT.n)) (srcs.map (Option.map LocT.n)) = .ok ()) :
    (A.moved srcs rcvs amps).Good (P.moved A.staggered srcs rcvs) := by
  have hg : ∀ l, some l ∈ srcs ++ rcvs →
      LocGood A.eps P.ext (padBegin P.accZ P.wL) (padEnd A.staggered P.accZ P.wL) P.nb l := fun l hx => by
    rcases List.mem_append.1 ((hl l).1 hx) with h1 | h1
    · exact (extractLocations_iff.1 h.srcs).1 l h1
    · exact (extractLocations_iff.1 h.rcvs).1 l h1
  exact
  { h with
    nb := by
      show getNBatch srcs A.wfs = .ok P.nb
      unfold getNBatch
      obtain ⟨l, hl⟩ := hr
      have hmem : l.nb ∈ srcs.filterMap (Option.map LocT.nb) := List.mem_filterMap.2 ⟨_, hl, rfl⟩
      cases hc : srcs.filterMap (Option.map LocT.nb) with
      | nil => rw [hc] at hmem; cases hmem
      | cons n ns =>
          have : n ∈ srcs.filterMap (Option.map LocT.nb) := by rw [hc]; exact List.mem_cons_self
          obtain ⟨o, ho, e⟩ := List.mem_filterMap.1 this
          obtain ⟨l', rfl, rfl⟩ := Option.map_eq_some_iff.1 e
          exact congrArg Except.ok (hg l' (List.mem_append_left _ ho)).batch
    nt := by
      have := h.nt
      show setNt A.nt (amps.map (Option.map AmpT.nt)) P.ratio = .ok P.nt
      unfold setNt at this ⊢
      rw [filterMap_map_id, ha, ← filterMap_map_id]
      exact this
    ampsMatch := hm
    amps := by
      have := h.amps
      show checkAmps amps P.nb P.nt P.ratio P.ff P.tf = .ok ()
      rw [checkAmps_filter] at this ⊢
      rw [ha]
      exact this
    ext := surveyExtents_set hl h.ext
    srcs := extractLocations_iff.2 ⟨fun l hx => hg l (List.mem_append_left _ hx), rfl⟩
    rcvs := extractLocations_iff.2 ⟨fun l hx => hg l (List.mem_append_right _ hx), rfl⟩ }

theorem shotIn_moved {A : SetupArgs d} {P : Plan d} (h : A.Good P) (tt : Bool) (s : ℕ) (amps : List (Option AmpT)) :
    shotIn (A.moved A.rcvs A.srcs amps) (P.moved A.staggered A.rcvs A.srcs) tt s =
      { shotIn A P tt s with
        srcs := (shotIn A P tt s).rcvs, rcvs := (shotIn A P tt s).srcs, amps := amps.map fun a => upAmps P tt a s } := by
  have e1 := (extractLocations_iff.1 h.srcs).2
  have e2 := (extractLocations_iff.1 h.rcvs).2
  unfold shotIn
  rw [e1, e2]
  rfl

/-! ### One source and one receiver -/

/-- The list that has the given entry at place `a` and `none` elsewhere. -/
def oneAt {α : Type*} (n : ℕ) (a : Fin n) (x : α) : List (Option α) :=
  List.ofFn fun k : Fin n => if k = a then some x else none

theorem oneAt_filter {α : Type*} {n : ℕ} (a : Fin n) (x : α) : (oneAt n a x).filterMap id = [x] := by
  induction n with
  | zero => exact a.elim0
  | succ n ih =>
      unfold oneAt
      rw [List.ofFn_succ]
      refine Fin.cases ?_ (fun a => ?_) a
      · rw [if_pos rfl]
        simp only [Fin.succ_ne_zero, if_false]
        rw [List.filterMap_cons_some (b := x) (by rfl)]
        congr 1
        simp [List.filterMap_eq_nil_iff]
      · rw [if_neg (Fin.succ_ne_zero a).symm, List.filterMap_cons_none (by rfl)]
        simp only [Fin.succ_inj]
        exact ih a

theorem oneAt_map {α β : Type*} {n : ℕ} (a : Fin n) (x : α) (f : α → β) :
    (oneAt n a x).map (Option.map f) = oneAt n a (f x) := by
  unfold oneAt
  rw [List.map_ofFn]
  congr 1
  funext k
  simp only [Function.comp]
  split_ifs <;> rfl

theorem oneAt_get {α : Type*} {n : ℕ} (a k : Fin n) (x : α) :
    (oneAt n a x)[(k : ℕ)]? = some (if k = a then some x else none) := by
  simp [oneAt]

theorem zip_self_mem {α : Type*} : ∀ (l : List α) (p : α × α), p ∈ l.zip l → p.1 = p.2
  | [], _, h => by cases h
  | a :: l, p, h => by
      rw [List.zip_cons_cons, List.mem_cons] at h
      rcases h with rfl | h
      · rfl
      · exact zip_self_mem l p h

theorem checkAmpsMatch_oneAt {n : ℕ} (a : Fin n) (m : ℕ) :
    checkAmpsMatch (oneAt n a m) (oneAt n a m) = .ok () := by
  unfold checkAmpsMatch
  rw [if_neg (by simp), firstErr_ok]
  intro x hx
  obtain ⟨p, hp, rfl⟩ := List.mem_map.1 hx
  obtain ⟨x, y⟩ := p
  obtain rfl : x = y := zip_self_mem _ _ hp
  cases x with
  | none => rfl
  | some x => exact raiseIf_ok.2 (by simp)

theorem oneAt_mem {α : Type*} {n : ℕ} (a : Fin n) (x y : α) : some y ∈ oneAt n a x ↔ y = x := by
  unfold oneAt
  rw [List.mem_ofFn]
  constructor
  · rintro ⟨k, hk⟩
    by_cases h : k = a
    · rw [if_pos h] at hk
      exact (Option.some.inj hk).symm
    · rw [if_neg h] at hk
      cases hk
  · rintro rfl
    exact ⟨a, if_pos rfl⟩

theorem checkAmpsMatch_one {n : ℕ} {a : Fin n} {m m' : ℕ} (h : checkAmpsMatch (oneAt n a m) (oneAt n a m') = .ok ()) :
    m = m' := by
  unfold checkAmpsMatch at h
  rw [if_neg (by simp [oneAt]), firstErr_ok] at h
  have hz : (some m, some m') ∈ (oneAt n a m).zip (oneAt n a m') := by
    refine List.mem_of_getElem? (i := (a : ℕ)) ?_
    rw [List.getElem?_zip_eq_some]
    exact ⟨(oneAt_get a a m).trans (by rw [if_pos rfl]), (oneAt_get a a m').trans (by rw [if_pos rfl])⟩
  have := h _ (List.mem_map.2 ⟨_, hz, rfl⟩)
  simpa using raiseIf_ok.1 this

/-- Exchange of the only source and the only receiver. -/
theorem good_exchange {A : SetupArgs d} {P : Plan d} (h : A.Good P) {n : ℕ} {a b : Fin n} {l l' : LocT} {w : AmpT}
    (hs : A.srcs = oneAt n a l) (hr : A.rcvs = oneAt n b l') (hw : A.amps = oneAt n a w) (hn : l.n = l'.n) :
    (A.moved A.rcvs A.srcs (oneAt n b w)).Good (P.moved A.staggered A.rcvs A.srcs) := by
  refine good_moved h (fun x => ?_) ⟨l', hr ▸ (oneAt_mem _ _ _).2 rfl⟩ _ ?_ ?_
  · rw [List.mem_append, List.mem_append, or_comm]
  · rw [hw, oneAt_filter, oneAt_filter]
  · have := h.ampsMatch
    rw [hw, hs, oneAt_map, oneAt_map] at this
    rw [hr, oneAt_map, oneAt_map, checkAmpsMatch_one this, hn]
    exact checkAmpsMatch_oneAt _ _

end Dw.Setup
