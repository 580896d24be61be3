import Verif.Setup.Axes
import Verif.Spec.Mirror

/-!
# Calls seen in a mirror

Along the axes with `ε k` the models, the locations and the widths of the PML are reversed.
-/

namespace Dw.Setup

open Scalar (upAmps upS WholeIgnored cellOf cellOf_idx)
open Spec (flip flip_flip)

variable {d : ℕ} (ε : Fin d → Bool)

/-- A list with two entries per axis. -/
def flips {α : Type*} (l : List α) (x : α) : List α :=
  (List.ofFn fun k => [l.getD (if ε k then 2 * k + 1 else 2 * k) x, l.getD (if ε k then 2 * k else 2 * k + 1) x]).flatten

def PyArg.flips : PyArg → PyArg
  | .one x => .one x
  | .seq l => .seq (Setup.flips ε l .other)

/-- Locations in a model with last cell `N`. -/
def LocT.flip (N : Fin d → ℤ) (l : LocT) : LocT :=
  { l with val := fun s i k =>
      if h : k < d then
        if ε ⟨k, h⟩ ∧ l.val s i k ≠ (ignoreLocation : ℚ) then N ⟨k, h⟩ - l.val s i k else l.val s i k
      else l.val s i k }

def ModelT.flip {R : Type*} (m : ModelT d R) : ModelT d R :=
  ⟨m.nb, m.shape, fun s c => m.val s (Spec.flip ε (fun k => m.shape k - 1) c)⟩

/-- All coordinates are whole numbers. -/
def LocT.Integral (d : ℕ) (l : LocT) : Prop := ∀ s < l.nb, ∀ i < l.n, ∀ k < d, ∃ z : ℤ, l.val s i k = z

variable {ε}

section
variable {α β : Type*}

theorem flips_length (l : List α) (x : α) : (flips ε l x).length = 2 * d := by
  unfold flips
  rw [List.length_flatten, List.map_ofFn, List.sum_ofFn]
  simp [mul_comm]

theorem flips_getD (l : List α) (x y : α) (k : Fin d) :
    (flips ε l x).getD (2 * k) y = l.getD (if ε k then 2 * k + 1 else 2 * k) x ∧
    (flips ε l x).getD (2 * k + 1) y = l.getD (if ε k then 2 * k else 2 * k + 1) x :=
  flatten_getD (fun k => l.getD (if ε k then 2 * k + 1 else 2 * k) x) (fun k => l.getD (if ε k then 2 * k else 2 * k + 1) x) y k

theorem flips_map (f : α → β) (l : List α) (x : α) : (flips ε l x).map f = flips ε (l.map f) (f x) := by
  unfold flips
  rw [List.map_flatten, List.map_ofFn]
  simp only [getD_map']
  rfl

theorem flips_lt (k : Fin d) : (if ε k then 2 * (k : ℕ) + 1 else 2 * k) < 2 * d ∧ (if ε k then 2 * (k : ℕ) else 2 * k + 1) < 2 * d := by
  have := k.isLt
  cases ε k <;> simp <;> omega

theorem flips_any {l : List α} (hl : l.length = 2 * d) (x y : α) : flips ε l x = flips ε l y := by
  unfold flips
  refine congrArg _ (congrArg _ (funext fun k => ?_))
  have := flips_lt (ε := ε) k
  rw [getD_any (by omega) x y, getD_any (by omega) x y]

theorem flips_mem {l : List α} (hl : l.length = 2 * d) {x y : α} (h : y ∈ flips ε l x) : y ∈ l := by
  unfold flips at h
  obtain ⟨a, ha, hy⟩ := List.mem_flatten.1 h
  obtain ⟨k, rfl⟩ := (List.mem_ofFn' _ _).1 ha
  have := flips_lt (ε := ε) k
  simp only [List.mem_cons, List.not_mem_nil, or_false] at hy
  rcases hy with rfl | rfl
  · rw [List.getD_eq_getElem _ _ (by omega)]
    exact List.getElem_mem _
  · rw [List.getD_eq_getElem _ _ (by omega)]
    exact List.getElem_mem _

theorem flips_replicate (y x : α) : flips ε (List.replicate (2 * d) y) x = List.replicate (2 * d) y :=
  list_replicate (flips_length _ _) fun z hz => (List.mem_replicate.1 (flips_mem (by simp) hz)).2

end

theorem setPmlWidth_flip {w : PyArg} {r : List ℤ} (h : setPmlWidth w d = .ok r) :
    setPmlWidth (w.flips ε) d = .ok (flips ε r 0) := by
  obtain ⟨⟨h1, h2⟩, h3, h4⟩ := (C35_pml_width w d r).1 h
  rw [List.length_map] at h1
  refine (C35_pml_width _ _ _).2 ⟨⟨by rw [List.length_map, flips_length], ?_⟩, fun z hz => h3 z (flips_mem h1 hz), ?_⟩
  · cases w with
    | one x =>
        obtain ⟨q, hq, e⟩ := h2
        refine ⟨q, hq, ?_⟩
        rw [flips_map, e]
        exact flips_replicate _ _
    | seq l =>
        show (flips ε l .other).map PyNum.toFloat = _
        rw [flips_map, h2, flips_map, flips_map]
        exact flips_any (by simp [h1]) _ _
  · intro x hx
    cases w with
    | one y =>
        obtain rfl : y = x := by injection hx
        exact h4 y rfl
    | seq l => cases hx

/-! ### Locations -/

variable {N : Fin d → ℤ}

theorem LocT.flip_val (l : LocT) (s i : ℕ) (k : Fin d) : (l.flip ε N).val s i k =
    if ε k ∧ l.val s i k ≠ (ignoreLocation : ℚ) then N k - l.val s i k else l.val s i k := by
  simp [LocT.flip]

/-- The locations are not after `N`. -/
def LocT.Below (N : Fin d → ℤ) (l : LocT) : Prop :=
  ∀ s < l.nb, ∀ i < l.n, ∀ k : Fin d, l.val s i k ≠ (ignoreLocation : ℚ) → l.val s i k ≤ N k

/-- Ignored entries are the same, for locations in the model. -/
theorem LocT.flip_ignore {l : LocT} (hb : l.Below N) {s i : ℕ} (hs : s < l.nb) (hn : i < l.n) (k : Fin d) :
    (l.flip ε N).val s i k = (ignoreLocation : ℚ) ↔ l.val s i k = (ignoreLocation : ℚ) := by
  rw [LocT.flip_val]
  by_cases h : l.val s i k = (ignoreLocation : ℚ)
  · simp [h]
  · split_ifs with h1
    · refine iff_of_false (fun h2 => ?_) h
      have h3 : (ignoreLocation : ℚ) < 0 := by decide +kernel
      rw [← h2] at h3
      have := hb s hs i hn k h
      linarith
    · rfl

theorem LocT.flip_trunc {l : LocT} (hi : l.Integral d) {s i : ℕ} (hs : s < l.nb) (hn : i < l.n) (k : Fin d)
    (h : l.val s i k ≠ (ignoreLocation : ℚ)) :
    trunc ((l.flip ε N).val s i k) = if ε k then N k - trunc (l.val s i k) else trunc (l.val s i k) := by
  obtain ⟨z, hz⟩ := hi s hs i hn k k.isLt
  rw [LocT.flip_val]
  cases ε k
  · simp
  · rw [if_pos ⟨rfl, h⟩, if_pos rfl, hz, trunc_int]
    exact_mod_cast trunc_int (N k - z)

theorem LocT.flip_integral {l : LocT} (hi : l.Integral d) : (l.flip ε N).Integral d := by
  intro s hs i hn k hk
  obtain ⟨z, hz⟩ := hi s hs i hn k hk
  have := LocT.flip_val (ε := ε) (N := N) l s i ⟨k, hk⟩
  simp only at this
  rw [this, hz]
  split_ifs
  · exact ⟨N ⟨k, hk⟩ - z, by push_cast; rfl⟩
  · exact ⟨z, rfl⟩

theorem LocT.In.below {l : LocT} {shape : Fin d → ℤ} (hin : l.In fun k => (0, shape k)) (hi : l.Integral d) :
    l.Below fun k => shape k - 1 := by
  intro s hs i hn k h
  obtain ⟨z, hz⟩ := hi s hs i hn k k.isLt
  have := (hin s hs i hn k h).2.2
  rw [hz, trunc_int] at this
  rw [hz]
  have : z ≤ shape k - 1 := by simp only at this; omega
  exact_mod_cast this

/-- Locations in the model, on cells, that have mirror images in the model. -/
structure LocT.Flippable (shape N : Fin d → ℤ) (l : LocT) : Prop where
  within : l.In fun k => (0, shape k)
  integral : l.Integral d
  below : l.Below N
  lt : ∀ k, N k < shape k

theorem LocT.In.flippable {l : LocT} {shape : Fin d → ℤ} (hin : l.In fun k => (0, shape k)) (hi : l.Integral d) :
    l.Flippable shape fun k => shape k - 1 := ⟨hin, hi, hin.below hi, fun k => by simp⟩

section
variable {l : LocT} {shape : Fin d → ℤ} (hl : l.Flippable shape N)
include hl

theorem LocT.flip_in : (l.flip ε N).In fun k => (0, shape k) := by
  intro s hs i hn k hv
  have hv' := fun h => hv ((LocT.flip_ignore (ε := ε) hl.below hs hn k).2 h)
  obtain ⟨z, hz⟩ := hl.integral s hs i hn k k.isLt
  have h1 := hl.within s hs i hn k hv'
  have hb := hl.below s hs i hn k hv'
  have hN := hl.lt k
  rw [LocT.flip_trunc hl.integral hs hn k hv', LocT.flip_val]
  rw [hz, trunc_int] at h1 ⊢
  rw [hz] at hv' hb
  have hb : z ≤ N k := by exact_mod_cast hb
  cases ε k
  · simpa using h1
  · rw [if_pos ⟨rfl, hv'⟩, if_pos rfl]
    obtain ⟨h1, h2, h3⟩ := h1
    simp only at h2 h3 ⊢
    refine ⟨?_, by omega, by omega⟩
    have : (0 : ℤ) ≤ N k - z := by omega
    exact_mod_cast this

theorem LocT.flip_ignored {s i : ℕ} (hs : s < l.nb) (hn : i < l.n) :
    (l.flip ε N).Ignored d s i ↔ l.Ignored d s i := by
  constructor
  · intro h k hk
    exact (LocT.flip_ignore (ε := ε) hl.below hs hn ⟨k, hk⟩).1 (h k hk)
  · intro h k hk
    exact (LocT.flip_ignore (ε := ε) hl.below hs hn ⟨k, hk⟩).2 (h k hk)

theorem LocT.flip_whole {s : ℕ} (hs : s < l.nb) (h : WholeIgnored d l s) :
    WholeIgnored d (l.flip ε N) s := by
  intro i hn
  rw [LocT.flip_ignored hl hs hn]
  refine (h i hn).imp id fun h k hk h1 => h k hk ?_
  exact (LocT.flip_ignore (ε := ε) hl.below hs hn ⟨k, hk⟩).1 h1

theorem LocGood.flip {eps : ℚ} {p0 p1 p0' p1' : Fin d → ℤ} {nb : ℕ} (h : LocGood eps (fun k => (0, shape k)) p0 p1 nb l)
    (hd : 0 < d) (hp0 : ∀ k, 0 ≤ p0 k) (hp1 : ∀ k, 0 ≤ p1 k)
    (hp0' : ∀ k, 0 ≤ p0' k) (hp1' : ∀ k, 0 ≤ p1' k) (hw : ∀ s < nb, WholeIgnored d l s) :
    LocGood eps (fun k => (0, shape k)) p0' p1' nb (l.flip ε N) where
  close := fun s hs i hn k hk => by
    have hkd : k < d := (show k < l.nd from hk).trans_eq h.nd
    obtain ⟨z, hz⟩ := LocT.flip_integral (ε := ε) (N := N) hl.integral s hs i hn k hkd
    rw [hz, trunc_int]
    have := (abs_nonneg _).trans (h.close s hs i hn k hk)
    simpa using this
  batch := h.batch
  nd := h.nd
  nodup := fun s hs => by
    have hg := activeIdx_nodup.1 (h.nodup s hs)
    have hsl : s < l.nb := h.batch ▸ hs
    refine activeIdx_nodup.2 fun i hn j hj h1 h2 h3 => ?_
    have n1 : ¬l.Ignored d s i := fun hig => h1 (idx_ignored hd ((LocT.flip_ignored hl hsl hn).2 hig))
    have n2 : ¬l.Ignored d s j := fun hig => h2 (idx_ignored hd ((LocT.flip_ignored hl hsl hj).2 hig))
    have key : ∀ {p0 p1 : Fin d → ℤ} {l : LocT} (_ : ∀ k, 0 ≤ p0 k)
        (_ : ∀ k, 0 ≤ p1 k) (_ : l.In fun k => (0, shape k)) (_ : s < l.nb) (_ : WholeIgnored d l s) {i : ℕ} (_ : i < l.n)
        (_ : ¬l.Ignored d s i), cellOf (paddedShape (fun k => (0, shape k)) p0 p1) ((idxOf (fun k => (0, shape k)) p0 p1 l).val s i) =
          some fun k => l.cell d s i k - 0 + p0 k := by
      intro p0 p1 l hp0 hp1 hin hsl hw i hi n1
      rw [(cellOf_idx hd (fun _ => le_refl _) hp0 hp1 hin hsl hi hw).1]
      unfold LocT.target
      rw [if_neg n1]
      rfl
    have hin' := LocT.flip_in (ε := ε) hl
    have hw' := LocT.flip_whole (ε := ε) hl hsl (hw s hs)
    have c1 := key hp0' hp1' hin' hsl hw' hn (fun h => n1 ((LocT.flip_ignored hl hsl hn).1 h))
    have c2 := key hp0' hp1' hin' hsl hw' hj (fun h => n2 ((LocT.flip_ignored hl hsl hj).1 h))
    rw [h3, c2] at c1
    have c3 := Option.some.inj c1
    have m1 := fun k : Fin d => ((hw s hs i hn).resolve_left n1) k k.isLt
    have m2 := fun k : Fin d => ((hw s hs j hj).resolve_left n2) k k.isLt
    have ecell : l.cell d s i = l.cell d s j := by
      funext k
      have := congrFun c3 k
      simp only [LocT.cell, LocT.flip_trunc hl.integral hsl hn k (m1 k), LocT.flip_trunc hl.integral hsl hj k (m2 k)] at this
      unfold LocT.cell
      cases hε : ε k
      · simp only [hε, Bool.false_eq_true, if_false] at this
        omega
      · simp only [hε, if_true] at this
        omega
    have e1 := key hp0 hp1 hl.within hsl (hw s hs) hn n1
    have e2 := key hp0 hp1 hl.within hsl (hw s hs) hj n2
    have hneg : (ignoreLocation : ℤ) < 0 := by decide +kernel
    have pos : ∀ {n : Fin d → ℤ} {x : ℤ} {c : Cell d}, cellOf n x = some c → x ≠ ignoreLocation := by
      intro n x c hx hn
      unfold cellOf at hx
      rw [if_pos (by omega)] at hx
      cases hx
    refine hg i hn j hj (pos e1) (pos e2) ?_
    show location1d _ _ (l.cell d s i) = location1d _ _ (l.cell d s j)
    rw [ecell]

end

/-! ### The setup -/

/-- Two plans that differ by the direction of the axes. -/
structure Plan.Mirrored (ε : Fin d → Bool) (P P' : Plan d) : Prop where
  nb : P'.nb = P.nb
  maxVel : P'.maxVel = P.maxVel
  dt : P'.dt = P.dt
  ratio : P'.ratio = P.ratio
  accZ : P'.accZ = P.accZ
  freq : P'.freq = P.freq
  nt : P'.nt = P.nt
  interval : P'.interval = P.interval
  ff : P'.ff = P.ff
  tf : P'.tf = P.tf
  dx : ∀ k, P'.dx k = P.dx k
  w0 : ∀ k, P'.w0 k = if ε k then P.w1 k else P.w0 k
  w1 : ∀ k, P'.w1 k = if ε k then P.w0 k else P.w1 k
  ext : ∀ k, P'.ext k = P.ext k

/-- A location tensor and its mirror image; velocities between cells have another one. -/
inductive Flipped (ε : Fin d → Bool) (shape : Fin d → ℤ) (nb : ℕ) : Option LocT → Option LocT → Prop
  | no : Flipped ε shape nb none none
  | yes (l : LocT) (N : Fin d → ℤ) (h : l.Flippable shape N) (hw : ∀ s < nb, WholeIgnored d l s) :
      Flipped ε shape nb (some l) (some (l.flip ε N))

theorem Flipped.mem {shape : Fin d → ℤ} {nb : ℕ} {ls ls' : List (Option LocT)} (h : List.Forall₂ (Flipped ε shape nb) ls ls')
    {l' : LocT} (hl : some l' ∈ ls') :
    ∃ l N, some l ∈ ls ∧ l' = l.flip ε N ∧ l.Flippable shape N ∧ ∀ s < nb, WholeIgnored d l s := by
  induction h with
  | nil => cases hl
  | cons h1 h2 ih =>
      rcases List.mem_cons.1 hl with e | e
      · cases h1 with
        | no => cases e
        | yes l N h hw =>
            cases e
            exact ⟨l, N, List.mem_cons_self, rfl, h, hw⟩
      · obtain ⟨l, N, h3, h4⟩ := ih e
        exact ⟨l, N, List.mem_cons_of_mem _ h3, h4⟩

theorem Flipped.map {shape : Fin d → ℤ} {nb : ℕ} {ls ls' : List (Option LocT)} (h : List.Forall₂ (Flipped ε shape nb) ls ls')
    {α : Type*} (f : LocT → α) (hf : ∀ l N, f (LocT.flip ε N l) = f l) : ls'.map (Option.map f) = ls.map (Option.map f) := by
  induction h with
  | nil => rfl
  | cons h1 h2 ih =>
      rw [List.map_cons, List.map_cons, ih]
      cases h1 with
      | no => rfl
      | yes l N h hw => rw [Option.map_some, Option.map_some, hf]

/-- The call in the mirror, with these locations. -/
def SetupArgs.flip (ε : Fin d → Bool) (A : SetupArgs d) (srcs rcvs : List (Option LocT)) : SetupArgs d :=
  { A with
    models := A.models.map fun m => (m.1.flip ε, m.2)
    srcs := srcs
    rcvs := rcvs
    pmlWidth := A.pmlWidth.flips ε }

/-- The plan of the call in the mirror. -/
noncomputable def Plan.flip (ε : Fin d → Bool) (A : SetupArgs d) (srcs rcvs : List (Option LocT)) (P : Plan d) : Plan d :=
  let wL := Setup.flips ε P.wL 0
  { P with
    wL := wL
    models := (A.flip ε srcs rcvs).models.map (modelOf P.ext (padList (d := d) (padBegin P.accZ wL) (padEnd A.staggered P.accZ wL)))
    srcs := srcs.map (idxOpt P.ext (padBegin P.accZ wL) (padEnd A.staggered P.accZ wL) P.nb)
    rcvs := rcvs.map (idxOpt P.ext (padBegin P.accZ wL) (padEnd A.staggered P.accZ wL) P.nb) }

theorem Plan.flip_mirrored (A : SetupArgs d) (srcs rcvs : List (Option LocT)) (P : Plan d) :
    P.Mirrored ε (P.flip ε A srcs rcvs) where
  nb := rfl
  maxVel := rfl
  dt := rfl
  ratio := rfl
  accZ := rfl
  freq := rfl
  nt := rfl
  interval := rfl
  ff := rfl
  tf := rfl
  dx := fun _ => rfl
  w0 := fun k => (flips_getD _ _ _ k).1.trans (by cases ε k <;> rfl)
  w1 := fun k => (flips_getD _ _ _ k).2.trans (by cases ε k <;> rfl)
  ext := fun _ => rfl

theorem extents_none {A : SetupArgs d} {P : Plan d} (h : A.Good P) (hsp : A.surveyPad = .none) (hwf : ∀ x ∈ A.wfs, x = none) :
    P.ext = fun k => (0, A.shape k) := by
  have h1 := h.ext
  rw [hsp, surveyExtents_none] at h1
  have h2 := h1.2
  rwa [if_neg fun h3 => by
    obtain ⟨x, h4, h5⟩ := List.any_eq_true.1 h3
    obtain ⟨y, hy, rfl⟩ := List.mem_map.1 h4
    rw [hwf y hy] at h5
    cases h5] at h2

theorem filterMap_of_map {α β : Type*} (f : α → Option β) (l : List α) : l.filterMap f = (l.map f).filterMap id := by
  rw [List.filterMap_map]
  rfl

theorem good_flip {A : SetupArgs d} {P : Plan d} (h : A.Good P) (hnb : 0 < P.nb) (hsp : A.surveyPad = .none)
    (hwf : ∀ x ∈ A.wfs, x = none) {srcs rcvs : List (Option LocT)}
    (hs : List.Forall₂ (Flipped ε A.shape P.nb) A.srcs srcs) (hr : List.Forall₂ (Flipped ε A.shape P.nb) A.rcvs rcvs) :
    (A.flip ε srcs rcvs).Good (P.flip ε A srcs rcvs) := by
  have hext := extents_none h hsp hwf
  have hd : 0 < d := Nat.pos_of_ne_zero h.shape_pos.1
  have b0 : ∀ k, 0 ≤ padBegin (d := d) P.accZ P.wL k := fun k => add_nonneg (by positivity) (h.widths k).1
  have b1 : ∀ k, 0 ≤ padEnd (d := d) A.staggered P.accZ P.wL k := fun k => add_nonneg (fdEnd_nonneg _ _) (h.widths k).2
  have hm := Plan.flip_mirrored (ε := ε) A srcs rcvs P
  have c0 : ∀ k, 0 ≤ padBegin (d := d) P.accZ (flips ε P.wL 0) k := fun k => by
    refine add_nonneg (by positivity) ?_
    have := hm.w0 k
    unfold Plan.w0 at this
    refine le_of_le_of_eq ?_ this.symm
    cases ε k
    · exact (h.widths k).1
    · exact (h.widths k).2
  have c1 : ∀ k, 0 ≤ padEnd (d := d) A.staggered P.accZ (flips ε P.wL 0) k := fun k => by
    refine add_nonneg (fdEnd_nonneg _ _) ?_
    have := hm.w1 k
    unfold Plan.w1 at this
    refine le_of_le_of_eq ?_ this.symm
    cases ε k
    · exact (h.widths k).2
    · exact (h.widths k).1
  have hL : ∀ l, some l ∈ A.srcs ++ A.rcvs →
      LocGood A.eps P.ext (padBegin P.accZ P.wL) (padEnd A.staggered P.accZ P.wL) P.nb l := fun l hl => by
    rcases List.mem_append.1 hl with h1 | h1
    · exact (extractLocations_iff.1 h.srcs).1 l h1
    · exact (extractLocations_iff.1 h.rcvs).1 l h1
  rw [hext] at hL
  have hmem : ∀ l', some l' ∈ srcs ++ rcvs → ∃ l N, some l ∈ A.srcs ++ A.rcvs ∧ l' = l.flip ε N ∧ l.Flippable A.shape N ∧
      ∀ s < P.nb, WholeIgnored d l s := fun l' hl' => by
    rcases List.mem_append.1 hl' with h1 | h1
    · obtain ⟨l, N, h2, h3⟩ := Flipped.mem hs h1
      exact ⟨l, N, List.mem_append_left _ h2, h3⟩
    · obtain ⟨l, N, h2, h3⟩ := Flipped.mem hr h1
      exact ⟨l, N, List.mem_append_right _ h2, h3⟩
  have hL' : ∀ l', some l' ∈ srcs ++ rcvs → LocGood A.eps (fun k => (0, A.shape k)) (padBegin P.accZ (flips ε P.wL 0))
      (padEnd A.staggered P.accZ (flips ε P.wL 0)) P.nb l' := fun l' hl' => by
    obtain ⟨l, N, h1, rfl, h2, h3⟩ := hmem l' hl'
    exact LocGood.flip h2 (hL l h1) hd b0 b1 c0 c1 h3
  have hshape : (A.flip ε srcs rcvs).shape = A.shape := by
    unfold SetupArgs.shape SetupArgs.flip
    cases hm : A.models with
    | nil => simp
    | cons m l => simp [ModelT.flip]
  exact
  { nb := by
      have hb := h.nb
      show getNBatch srcs A.wfs = .ok P.nb
      unfold getNBatch at hb ⊢
      rw [filterMap_of_map, Flipped.map hs LocT.nb (fun _ _ => rfl), ← filterMap_of_map]
      exact hb
    dx := h.dx
    maxVel := h.maxVel
    cfl := h.cfl
    acc := h.acc
    width := setPmlWidth_flip h.width
    freq := h.freq
    nt := h.nt
    interval := h.interval
    ff := h.ff
    tf := h.tf
    ampsMatch := by
      have := h.ampsMatch
      show checkAmpsMatch _ (srcs.map (Option.map LocT.n)) = _
      rw [Flipped.map hs LocT.n (fun _ _ => rfl)]
      exact this
    amps := h.amps
    ext := by
      have h1 := h.ext
      rw [hshape]
      show surveyExtents A.shape (srcs ++ rcvs) _ A.surveyPad _ _ _ = .ok P.ext
      rw [hsp, surveyExtents_none] at h1 ⊢
      have hno : ¬(A.wfs.map (Option.map WfT.shape)).any Option.isSome = true := fun h3 => by
        obtain ⟨x, h4, h5⟩ := List.any_eq_true.1 h3
        obtain ⟨y, hy, rfl⟩ := List.mem_map.1 h4
        rw [hwf y hy] at h5
        cases h5
      refine ⟨checkLocationsWithinModel_iff.2 ⟨(checkLocationsWithinModel_iff.1 h1.1).1, fun l' hl' k => ?_⟩, ?_⟩
      · obtain ⟨l, N, hl, rfl, hf, -⟩ := hmem l' hl'
        refine ⟨(((checkLocationsWithinModel_iff.1 h1.1).2 l hl) k).1, fun x hx => ?_⟩
        unfold LocT.active at hx
        obtain ⟨hx1, hx2⟩ := List.mem_filter.1 hx
        obtain ⟨s, hs, hx3⟩ := List.mem_flatMap.1 hx1
        obtain ⟨i, hi, rfl⟩ := List.mem_map.1 hx3
        have hs' := List.mem_range.1 hs
        have hi' := List.mem_range.1 hi
        have h4 := LocT.flip_in (ε := ε) hf s hs' i hi' k (by simpa using hx2)
        obtain ⟨z, hz⟩ := LocT.flip_integral (ε := ε) (N := N) hf.integral s hs' i hi' k k.isLt
        rw [hz, trunc_int] at h4
        rw [hz]
        exact ⟨h4.1, by exact_mod_cast h4.2.2⟩
      · refine Eq.mpr (if_neg hno) ?_
        exact hext
    models := by
      refine (extractModels_iff hnb).2 ⟨fun m hm => ?_, rfl⟩
      obtain ⟨m, hm', rfl⟩ := List.mem_map.1 hm
      have := ((extractModels_iff hnb).1 h.models).1 m hm'
      refine ⟨?_, this.batch, fun hr k => this.box hr k⟩
      rw [hshape, ← this.shape]
      rfl
    srcs := by
      refine extractLocations_iff.2 ⟨fun l' hl' => ?_, rfl⟩
      show LocGood A.eps P.ext _ _ _ _
      rw [hext]
      exact hL' l' (List.mem_append_left _ hl')
    rcvs := by
      refine extractLocations_iff.2 ⟨fun l' hl' => ?_, rfl⟩
      show LocGood A.eps P.ext _ _ _ _
      rw [hext]
      exact hL' l' (List.mem_append_right _ hl')
    wfs := prepareWavefields_ok.2 fun w hw => by
      have := hwf _ hw
      cases this }

/-- The locations of shot `s` lie in the model, on cells, and are ignored in all dimensions or in none. -/
structure OnCells (shape N : Fin d → ℤ) (nb : ℕ) (o : Option LocT) : Prop where
  flippable : ∀ l, o = some l → l.Flippable shape N
  whole : ∀ l, o = some l → ∀ s < nb, WholeIgnored d l s
  batch : ∀ l, o = some l → l.nb = nb

theorem OnCells.flipped {shape : Fin d → ℤ} {nb : ℕ} {o : Option LocT} (h : OnCells shape N nb o) :
    Flipped ε shape nb o (o.map (LocT.flip ε N)) := by
  cases o with
  | none => exact .no
  | some l => exact .yes l N (h.flippable l rfl) (h.whole l rfl)

theorem OnCells.flip_whole {shape : Fin d → ℤ} {nb s : ℕ} {o : Option LocT} (h : OnCells shape N nb o) (hs : s < nb) {l : LocT}
    (hl : o.map (LocT.flip ε N) = some l) : WholeIgnored d l s := by
  obtain ⟨l, rfl, rfl⟩ := Option.map_eq_some_iff.1 hl
  exact LocT.flip_whole (h.flippable l rfl) (h.batch l rfl ▸ hs) (h.whole l rfl s hs)

theorem batch_of {A : SetupArgs d} {P : Plan d} (h : A.Good P) {l : LocT} (hl : some l ∈ A.srcs ++ A.rcvs) : l.nb = P.nb := by
  rcases List.mem_append.1 hl with h1 | h1
  · exact ((extractLocations_iff.1 h.srcs).1 l h1).batch
  · exact ((extractLocations_iff.1 h.rcvs).1 l h1).batch

theorem onCells {A : SetupArgs d} {P : Plan d} (h : A.Good P) (hext : P.ext = fun k => (0, A.shape k))
    (hint : ∀ l, some l ∈ A.srcs ++ A.rcvs → l.Integral d)
    (hw : ∀ l, some l ∈ A.srcs ++ A.rcvs → ∀ s < P.nb, WholeIgnored d l s) {o : Option LocT} (ho : o ∈ A.srcs ++ A.rcvs) :
    OnCells A.shape (fun k => A.shape k - 1) P.nb o := by
  obtain ⟨-, hin⟩ := h.in_extents
  rw [hext] at hin
  exact ⟨fun l e => (hin l (e ▸ ho)).flippable (hint l (e ▸ ho)), fun l e => hw l (e ▸ ho), fun l e => batch_of h (e ▸ ho)⟩

end Dw.Setup
