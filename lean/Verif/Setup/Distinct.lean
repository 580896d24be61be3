import Verif.Setup.Coords

/-!
# Locations of a shot in an accepted call are in different cells
-/

namespace Dw.Setup

open Dw.Scalar (WholeIgnored cellOf)

variable {d : ℕ} {A : SetupArgs d} {P : Plan d}

theorem nodup_filter_map {f : ℕ → ℤ} {n : ℕ} {p : ℤ → Bool} (h : (((List.range n).map f).filter p).Nodup) {i j : ℕ}
    (hi : i < n) (hj : j < n) (hp : p (f i) = true) (e : f i = f j) : i = j := by
  rw [List.filter_map] at h
  refine (List.nodup_map_iff_inj_on (List.nodup_range.filter _)).1 h i ?_ j ?_ e
  · exact List.mem_filter.2 ⟨List.mem_range.2 hi, hp⟩
  · exact List.mem_filter.2 ⟨List.mem_range.2 hj, (congrArg p e).symm.trans hp⟩

theorem locCell_inj (h : A.Good P) {s : ℕ} (hs : s < P.nb) {o : Option LocT} (ho : o ∈ A.srcs ++ A.rcvs)
    (hw : ∀ l, o = some l → WholeIgnored d l s) {i j : ℕ} (hi : i < locCount o) (hj : j < locCount o) {c : Cell d}
    (ei : locCell o s i = some c) (ej : locCell o s j = some c) : i = j := by
  cases o with
  | none => cases ei
  | some l =>
      have hg : LocGood A.eps P.ext (padBegin P.accZ P.wL) (padEnd A.staggered P.accZ P.wL) P.nb l := by
        rcases List.mem_append.1 ho with h1 | h1
        · exact (extractLocations_iff.1 h.srcs).1 l h1
        · exact (extractLocations_iff.1 h.rcvs).1 l h1
      have hc : ∀ i, locCell (d := d) (some l) s i = some c → l.cell d s i = c := fun i e => by
        unfold locCell at e
        simp only at e
        split_ifs at e
        exact Option.some.inj e
      have hpl := placed h hs (some l) ho hw
      refine nodup_filter_map (hg.nodup s hs) hi hj ?_ ?_
      · have h0 : 0 ≤ (idxOf P.ext (padBegin P.accZ P.wL) (padEnd A.staggered P.accZ P.wL) l).val s i := by
          have hlt : i < ((idxOpt P.ext (padBegin P.accZ P.wL) (padEnd A.staggered P.accZ P.wL) P.nb (some l)).cells
              (P.n A.staggered) s).length := hi.trans_eq hpl.length.symm
          have e := (cells_get _ _ _ ⟨i, hlt⟩).symm.trans (hpl.get ⟨i, hlt⟩)
          simp only [ei, Option.map_some] at e
          by_contra hn
          cases (if_pos (not_le.1 hn)).symm.trans e
        have hneg : (ignoreLocation : ℤ) < 0 := by decide +kernel
        simp only [ne_eq, decide_not, Bool.not_eq_eq_eq_not, Bool.not_true, decide_eq_false_iff_not]
        omega
      · show location1d _ _ (l.cell d s i) = location1d _ _ (l.cell d s j)
        rw [hc i ei, hc j ej]

/-! ### The locations of all shots -/

theorem src_count (A : SetupArgs d) (P : Plan d) (tt : Bool) (s j : ℕ) :
    ((shotIn A P tt s).src j).length = (Scalar.locAt P.srcs j).n := by
  show ((P.srcs.map fun t => t.cells (P.n A.staggered) s).getD j []).length = (P.srcs.getD j ⟨0, 0, fun _ _ => 0⟩).n
  rw [List.getD_eq_getElem?_getD, List.getD_eq_getElem?_getD, List.getElem?_map]
  cases P.srcs[j]? <;> simp [IdxT.cells]

theorem rcv_count (A : SetupArgs d) (P : Plan d) (tt : Bool) (s j : ℕ) :
    ((shotIn A P tt s).rcv j).length = (Scalar.locAt P.rcvs j).n := by
  show ((P.rcvs.map fun t => t.cells (P.n A.staggered) s).getD j []).length = (P.rcvs.getD j ⟨0, 0, fun _ _ => 0⟩).n
  rw [List.getD_eq_getElem?_getD, List.getD_eq_getElem?_getD, List.getElem?_map]
  cases P.rcvs[j]? <;> simp [IdxT.cells]

theorem src_distinct (h : A.Good P) {s : ℕ} (hs : s < P.nb) (tt : Bool) {j : ℕ} {o : Option LocT}
    (ho : A.srcs[j]? = some o) (hw : ∀ l, o = some l → WholeIgnored d l s) {i i' : ℕ} {c : Cell d}
    (e : ((shotIn A P tt s).src j).getD i none = some c) (e' : ((shotIn A P tt s).src j).getD i' none = some c) :
    i = i' := by
  have hp := src_placed h hs tt ho hw
  have key : ∀ i, ((shotIn A P tt s).src j).getD i none = some c → i < locCount o ∧ (locCell o s i).map P.at = some c := by
    intro i e
    by_cases hi : i < ((shotIn A P tt s).src j).length
    · rw [List.getD_eq_getElem?_getD, List.getElem?_eq_getElem hi] at e
      exact ⟨hi.trans_eq hp.length, (hp.get ⟨i, hi⟩).symm.trans e⟩
    · rw [List.getD_eq_getElem?_getD, List.getElem?_eq_none (not_lt.1 hi)] at e
      cases e
  obtain ⟨h1, h2⟩ := key i e
  obtain ⟨h3, h4⟩ := key i' e'
  obtain ⟨x, hx, rfl⟩ := Option.map_eq_some_iff.1 h2
  obtain ⟨y, hy, e5⟩ := Option.map_eq_some_iff.1 h4
  obtain rfl := Plan.at_inj.1 e5
  exact locCell_inj h hs (List.mem_append_left _ (List.mem_of_getElem? ho)) hw h1 h3 hx hy

/-- Whether the blocks of a model are those of the shots (`m.shape[0] > 1`). -/
def Plan.batched (P : Plan d) (j : ℕ) : Bool := 1 < (P.models.getD j ⟨some 1, fun _ => 0, fun _ _ => 0⟩).nb.getD 1

/-- Model `j` of shot `s` is block 0 if the model is shared. -/
theorem shot_shared (h : A.Good P) (tt : Bool) {s : ℕ} (hs : s < P.nb) {j : ℕ} (hj : P.batched j = false) :
    (shotIn A P tt s).model j = (shotIn A P tt 0).model j := by
  have hnb : 0 < P.nb := by omega
  obtain ⟨hm, e⟩ := (extractModels_iff hnb).1 h.models
  show (P.models.map fun m => m.shot s).getD j _ = (P.models.map fun m => m.shot 0).getD j _
  rw [List.getD_eq_getElem?_getD, List.getD_eq_getElem?_getD, List.getElem?_map, List.getElem?_map]
  unfold Plan.batched at hj
  rw [List.getD_eq_getElem?_getD] at hj
  cases hx : P.models[j]? with
  | none => rfl
  | some x =>
      rw [hx] at hj
      have hx' : x ∈ P.models := List.mem_of_getElem? hx
      rw [e] at hx'
      obtain ⟨m, hmm, rfl⟩ := List.mem_map.1 hx'
      have hb := (hm m hmm).batch
      have h1 : (modelOf P.ext (padList (d := d) (padBegin P.accZ P.wL) (padEnd A.staggered P.accZ P.wL)) m).nb.getD 1 =
        m.1.nb.getD 1 := rfl
      simp only [Option.getD_some, decide_eq_false_iff_not] at hj
      have h2 : m.1.nb.getD 1 = 1 := by
        rw [h1] at hj
        omega
      simp only [Option.map_some, Option.getD_some, ModelT.shot]
      rw [h1, h2]
      rfl

end Dw.Setup
