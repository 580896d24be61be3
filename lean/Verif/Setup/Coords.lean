import Verif.Spec.Grid
import Verif.Scalar.UserWF
import Verif.Setup.Shot

/-!
# The results of the setup in the coordinates of the models

`P.off k` is the difference between an index of a padded array and the index of the same cell in the model
of the user.
-/

namespace Dw.Setup

open Dw.Scalar (cellOf)

variable {d : ℕ}

/-- The grid of a plan. -/
noncomputable def Plan.grid (P : Plan d) : Spec.Grid d :=
  { acc := P.acc, dx := P.dx, dt := P.dt, lo := fun k => (P.ext k).1, hi := fun k => (P.ext k).2 - 1
    w0 := P.w0, w1 := P.w1, vmax := P.maxVel, freq := P.freq }

def Plan.off (P : Plan d) (k : Fin d) : ℤ := P.acc.pad + P.w0 k - (P.ext k).1

/-- The cell of the padded arrays. -/
def Plan.at (P : Plan d) (c : Cell d) : Cell d := fun k => c k + P.off k

theorem Plan.at_shift (P : Plan d) (c : Cell d) (k : Fin d) (j : ℤ) :
    P.at (c.shift k j) = (P.at c).shift k j := by
  funext i
  by_cases h : i = k
  · subst h
    simp only [Plan.at, Cell.shift_same]
    ring
  · simp only [Plan.at, Cell.shift_ne _ _ _ _ h]

theorem Plan.at_inj {P : Plan d} {c c' : Cell d} : P.at c = P.at c' ↔ c = c' := by
  refine ⟨fun h => funext fun k => ?_, fun h => h ▸ rfl⟩
  have := congrFun h k
  simp only [Plan.at] at this
  omega

theorem Plan.at_sub (P : Plan d) (c : Cell d) : P.at (fun k => c k - P.off k) = c := by
  funext k
  simp [Plan.at]

/-- The number of time steps that are computed. -/
def Plan.steps (P : Plan d) : ℕ := P.nt.toNat / (P.ratio * P.interval).toNat * (P.ratio * P.interval).toNat

/-- The steps at which a callback with frequency `cf` is called, in units of the step ratio times the sampling
interval. -/
def Plan.callSteps (P : Plan d) (cf : ℤ) : List ℕ :=
  (List.range ((P.nt.toNat / (P.ratio * P.interval).toNat + cf.toNat - 1) / cf.toNat)).map (· * cf.toNat)

/-! ### Profiles -/

theorem maxPml_eq {w0 w1 : Fin d → ℤ} {dx : Fin d → ℝ} (hd : 0 < d) (h0 : ∀ k, 0 ≤ w0 k)
    (hdx : ∀ k, 0 < dx k) : maxPml w0 w1 dx = ⨆ k, max (w0 k * dx k) (w1 k * dx k) := by
  have : Nonempty (Fin d) := ⟨⟨0, hd⟩⟩
  have hb : BddAbove (Set.range fun k => max (w0 k * dx k) (w1 k * dx k)) := Set.finite_range _ |>.bddAbove
  have hle : ∀ (l : List ℝ) (b : ℝ), 0 ≤ b → (∀ x ∈ l, x ≤ b) → l.foldr max 0 ≤ b := by
    intro l b hb h
    induction l with
    | nil => exact hb
    | cons a l ih => exact max_le (h a List.mem_cons_self) (ih fun x hx => h x (List.mem_cons_of_mem _ hx))
  have hge : ∀ (l : List ℝ), ∀ x ∈ l, x ≤ l.foldr max 0 := by
    intro l
    induction l with
    | nil => intro x hx; cases hx
    | cons a l ih =>
        intro x hx
        rcases List.mem_cons.1 hx with rfl | hx
        · exact le_max_left _ _
        · exact (ih x hx).trans (le_max_right _ _)
  refine le_antisymm (hle _ _ ?_ fun x hx => ?_) (ciSup_le fun k => hge _ _ ?_)
  · refine le_trans ?_ (le_ciSup hb ⟨0, hd⟩)
    exact le_max_of_le_left (mul_nonneg (by exact_mod_cast h0 _) (hdx _).le)
  · obtain ⟨k, rfl⟩ := List.mem_ofFn.1 hx
    exact le_ciSup hb k
  · exact List.mem_ofFn.2 ⟨k, rfl⟩

theorem pmlFrac_eq {lo hi w0 w1 : ℤ} {x : ℝ} (h0 : 0 ≤ w0) (h1 : 0 ≤ w1) (hl : lo ≤ hi) :
    pmlFrac w0 w1 lo hi x = if x < lo ∧ 0 < w0 then min 1 ((lo - x) / w0)
      else if (hi : ℝ) < x ∧ 0 < w1 then min 1 ((x - hi) / w1) else 0 := by
  have hl' : (lo : ℝ) ≤ hi := by exact_mod_cast hl
  have hp : ∀ {w : ℤ}, 0 ≤ w → ¬0 < w → w = 0 := fun a b => by omega
  have side : ∀ {w : ℤ} {y : ℝ}, 0 ≤ w → (y ≤ 0 ∨ ¬0 < w) → pmlFracSide w y ≤ 0 := by
    intro w y hw hy
    unfold pmlFracSide
    split_ifs with h
    · exact le_rfl
    · have : (0 : ℝ) ≤ w := by exact_mod_cast hw
      exact div_nonpos_of_nonpos_of_nonneg (hy.resolve_right (by omega)) this
  have side' : ∀ {w : ℤ} {y : ℝ}, 0 < w → 0 < y → pmlFracSide w y = y / w ∧ 0 < y / w := by
    intro w y hw hy
    refine ⟨if_neg hw.ne', div_pos hy (by exact_mod_cast hw)⟩
  unfold pmlFrac
  split_ifs with h2 h3
  · obtain ⟨e, hpos⟩ := side' h2.2 (sub_pos.2 h2.1)
    rw [e, max_eq_left (a := ((lo : ℝ) - x) / w0), max_eq_right hpos.le]
    exact (side h1 (.inl (by linarith [h2.1]))).trans hpos.le
  · obtain ⟨e, hpos⟩ := side' h3.2 (sub_pos.2 h3.1)
    rw [e, max_eq_right (b := (x - (hi : ℝ)) / w1), max_eq_right hpos.le]
    refine (side h0 ?_).trans hpos.le
    by_cases h4 : 0 < w0
    · exact .inl (by linarith [not_lt.1 fun h5 => h2 ⟨h5, h4⟩])
    · exact .inr h4
  · have e1 : pmlFracSide w0 (lo - x) ≤ 0 := side h0 (by
      by_cases h4 : 0 < w0
      · exact .inl (by linarith [not_lt.1 fun h5 => h2 ⟨h5, h4⟩])
      · exact .inr h4)
    have e2 : pmlFracSide w1 (x - hi) ≤ 0 := side h1 (by
      by_cases h4 : 0 < w1
      · exact .inl (by linarith [not_lt.1 fun h5 => h3 ⟨h5, h4⟩])
      · exact .inr h4)
    rw [max_eq_left (max_le e1 e2)]
    simp

section
variable {A : SetupArgs d} {P : Plan d}

theorem Plan.grid_depth_of_noPml (hw : ∀ k, P.w0 k = 0 ∧ P.w1 k = 0) (k : Fin d) (x : ℝ) :
    P.grid.depth k x = 0 := by
  simp [Spec.Grid.depth, Plan.grid, hw k]

/-- The profiles the propagators get. -/
theorem ab_grid (h : A.Good P) (hP : Scalar.PmlOk P) (hext : ∀ k, (P.ext k).1 < (P.ext k).2) (st : Bool)
    (start : ℝ) (k : Fin d) (x : ℤ) :
    (P.pml st).ab start k (x + P.off k) = (P.grid.a k (start + x), some (P.grid.b k (start + x))) := by
  have hd : 0 < d := Nat.pos_of_ne_zero h.shape_pos.1
  have hwid : maxPml P.w0 P.w1 P.dx = P.grid.width :=
    maxPml_eq hd (fun k => (h.widths k).1) (Scalar.SetupGood.dx_pos h)
  by_cases hw : ∀ k, P.w0 k = 0 ∧ P.w1 k = 0
  · rw [Scalar.ab_noPml (show ∀ k, (P.pml st).w0 k = 0 ∧ (P.pml st).w1 k = 0 from hw)]
    simp [Spec.Grid.a, Spec.Grid.b, Spec.Grid.sigma, Plan.grid_depth_of_noPml hw]
  · have hf : (0 : ℝ) < P.freq := by exact_mod_cast hP.resolve_right hw
    have hpos : maxPml P.w0 P.w1 P.dx ≠ 0 := by
      simp only [not_forall] at hw
      obtain ⟨k, hk⟩ := hw
      have := h.widths k
      exact (maxPml_pos (Scalar.SetupGood.dx_pos h) k (by omega)).ne'
    have hfr : pmlFrac (P.w0 k) (P.w1 k) (((P.pml st).pad0 : ℝ) + P.w0 k)
        ((P.pml st).n k - 1 - (P.pml st).pad1 - P.w1 k) (start + (x + P.off k : ℤ)) =
        P.grid.depth k (start + x) := by
      have := pmlFrac_eq (x := start + x) (h.widths k).1 (h.widths k).2
        (by have := hext k; omega : (P.ext k).1 ≤ (P.ext k).2 - 1)
      refine Eq.trans ?_ this
      have en : (P.pml st).n k = (P.ext k).2 - (P.ext k).1 + padBegin P.accZ P.wL k + padEnd st P.accZ P.wL k := by
        show paddedShape _ _ _ k = _
        simp only [paddedShape]
        try omega
      unfold pmlFrac
      congr 3
      · congr 1
        simp only [Plan.pml, Plan.off]
        push_cast
        ring
      · congr 1
        rw [en]
        simp only [Plan.pml, Plan.off, padBegin, padEnd, Plan.acc, Plan.w0, Plan.w1]
        push_cast
        ring
    obtain ⟨β, e, -⟩ := C21_profiles _ (Scalar.SetupGood.valid h st) hf start k (x + P.off k)
    have hl : Real.log 0.001 = -Real.log 1000 := by
      rw [← Real.log_inv]
      norm_num
    have hs : -(1 + 2) * P.maxVel * Real.log 0.001 / (2 * maxPml P.w0 P.w1 P.dx) =
        3 * P.maxVel * Real.log 1000 / (2 * P.grid.width) := by
      rw [hl, hwid]
      ring
    have key : (P.pml st).ab start k (x + P.off k) =
        (P.grid.a k (start + x), (tdiv (P.grid.sigma k (start + x))
          (P.grid.sigma k (start + x) + P.grid.alpha k (start + x))).map fun q =>
            q * (Real.exp (-(P.grid.sigma k (start + x) + P.grid.alpha k (start + x)) * |P.dt|) - 1)) := by
      unfold PmlArgs.ab setupPml
      simp only
      rw [if_neg (show maxPml (P.pml st).w0 (P.pml st).w1 (P.pml st).dx ≠ 0 from hpos)]
      rw [show (P.pml st).w0 k = P.w0 k from rfl, show (P.pml st).w1 k = P.w1 k from rfl, hfr,
        show (P.pml st).maxVel = P.maxVel from rfl,
        show maxPml (P.pml st).w0 (P.pml st).w1 (P.pml st).dx = maxPml P.w0 P.w1 P.dx from rfl, hs]
      rfl
    rw [key] at e ⊢
    congr 1
    simp only [tdiv] at e ⊢
    split_ifs at e ⊢ with h0
    · cases e
    · rfl

/-- The profile `db`. -/
theorem db_grid (h : A.Good P) (hP : Scalar.PmlOk P) (hext : ∀ k, (P.ext k).1 < (P.ext k).2) (k : Fin d)
    (c : Cell d) (hc : P.grid.In c) :
    (P.pml false).db k (c k + P.off k) = some (P.grid.D1 k (fun c => P.grid.b k (c k)) c) := by
  have hn : (P.pml false).n k = (P.ext k).2 - (P.ext k).1 + P.w0 k + P.w1 k + 2 * P.acc.pad := by
    show paddedShape _ _ _ k = _
    simp only [paddedShape, padBegin, padEnd, fdEnd, Bool.false_eq_true, if_false, Plan.w0, Plan.w1, Plan.acc]
    ring
  have hck := hc k
  simp only [Plan.grid] at hck
  have hin : ((P.pml false).acc.pad : ℤ) ≤ c k + P.off k ∧
      c k + P.off k < (P.pml false).n k - (P.pml false).acc.pad := by
    rw [hn]
    simp only [Plan.pml, Plan.off]
    omega
  unfold PmlArgs.db
  rw [if_neg]
  · rw [pyDiff1_eq, if_pos hin]
    simp only [Spec.Grid.D1, Spec.central1_eq, Dw.D1, Cell.shift_same]
    have e : ∀ j : ℤ, c k + P.off k + j = c k + j + P.off k := fun j => by ring
    simp only [e, ab_grid h hP hext, Option.getD_some, zero_add]
    rfl
  · rintro ⟨-, -, j, -, -, -, hj⟩
    rw [show c k + P.off k + j = c k + j + P.off k by ring, ab_grid h hP hext] at hj
    cases hj

/-! ### Models -/

theorem fPad_padList (p0 p1 : Fin d → ℤ) (mode : PadMode) (shape : Fin d → ℤ) (u : Cell d → ℝ) (c : Cell d) :
    fPad mode (reversePad (padList p0 p1)) shape u c = match mode with
      | .replicate => u fun k => min (max (c k - p0 k) 0) (shape k - 1)
      | .constant => if ∀ k, 0 ≤ c k - p0 k ∧ c k - p0 k < shape k then u fun k => c k - p0 k else 0 := by
  cases mode <;> simp only [fPad, (fPad_reversePad p0 p1 _).1]

/-- A model as the propagators get it. -/
theorem model_grid (h : A.Good P) (hnb : 0 < P.nb) (hext : ∀ k, (P.ext k).1 < (P.ext k).2) (tt : Bool)
    (s j : ℕ) (m : ModelT d ℝ) (hm : A.models[j]? = some (m, .replicate)) (c : Cell d) :
    (shotIn A P tt s).model j (P.at c) = P.grid.extend (m.shot s) c := by
  obtain ⟨h1, h2⟩ := (extractModels_iff hnb).1 h.models
  have hg := h1 _ (List.mem_of_getElem? hm)
  have hsh : m.shape = A.shape := hg.shape
  have hin := h.in_extents.1
  have hl : ∀ k, sliceLen (P.ext k).1 (P.ext k).2 (m.shape k) = (P.ext k).2 - (P.ext k).1 := fun k => by
    have := hin k
    have := hext k
    rw [hsh]
    simp only [sliceLen]
    omega
  have e : (shotIn A P tt s).model j = fun c => m.val (if m.nb.getD 1 = 1 then 0 else s) fun k =>
      min (max (c k - padBegin P.accZ P.wL k) 0) ((P.ext k).2 - (P.ext k).1 - 1) + (P.ext k).1 := by
    unfold ShotIn.model shotIn
    simp only [h2, List.map_map]
    rw [List.getD_eq_getElem?_getD, List.getElem?_map, hm]
    funext c
    simp only [Option.map_some, Option.getD_some, Function.comp_apply, ModelT.shot, modelOf, fPad_padList, hl]
  rw [e]
  simp only [Spec.Grid.extend, ModelT.shot, Plan.grid]
  congr 1
  funext k
  have := hext k
  simp only [Plan.at, Plan.off, padBegin, Plan.w0, Plan.acc]
  omega

/-- The same for a model that is continued by zero. -/
theorem model_grid_zero (h : A.Good P) (hnb : 0 < P.nb) (hext : ∀ k, (P.ext k).1 < (P.ext k).2) (tt : Bool)
    (s j : ℕ) (m : ModelT d ℝ) (hm : A.models[j]? = some (m, .constant)) (c : Cell d) :
    (shotIn A P tt s).model j (P.at c) = P.grid.extendZero (m.shot s) c := by
  obtain ⟨h1, h2⟩ := (extractModels_iff hnb).1 h.models
  have hg := h1 _ (List.mem_of_getElem? hm)
  have hsh : m.shape = A.shape := hg.shape
  have hin := h.in_extents.1
  have hl : ∀ k, sliceLen (P.ext k).1 (P.ext k).2 (m.shape k) = (P.ext k).2 - (P.ext k).1 := fun k => by
    have := hin k
    have := hext k
    rw [hsh]
    simp only [sliceLen]
    omega
  have e : (shotIn A P tt s).model j = fun c => if ∀ k, 0 ≤ c k - padBegin P.accZ P.wL k ∧
        c k - padBegin P.accZ P.wL k < (P.ext k).2 - (P.ext k).1 then
      m.val (if m.nb.getD 1 = 1 then 0 else s) fun k => c k - padBegin P.accZ P.wL k + (P.ext k).1 else 0 := by
    unfold ShotIn.model shotIn
    simp only [h2, List.map_map]
    rw [List.getD_eq_getElem?_getD, List.getElem?_map, hm]
    funext c
    simp only [Option.map_some, Option.getD_some, Function.comp_apply, ModelT.shot, modelOf, fPad_padList, hl]
  rw [e]
  simp only [Spec.Grid.extendZero, ModelT.shot, Plan.grid]
  have hk : ∀ k, P.at c k - padBegin P.accZ P.wL k + (P.ext k).1 = c k := fun k => by
    simp only [Plan.at, Plan.off, padBegin, Plan.w0, Plan.acc]
    ring
  simp only [hk]
  refine if_congr (forall_congr' fun k => ?_) rfl rfl
  have := hk k
  omega

end

/-! ### Locations -/

/-- The number of locations in an argument that may be `None`. -/
def locCount : Option LocT → ℕ
  | none => 0
  | some l => l.n

open Classical in
/-- The cell of the model where location `i` of shot `s` is; `none` if it is ignored. -/
noncomputable def locCell (o : Option LocT) (s i : ℕ) : Option (Cell d) :=
  match o with
  | none => none
  | some l => if l.Ignored d s i then none else some fun k => trunc (l.val s i k)

/-- The sum of the amplitudes `g i` of the locations in cell `c`. -/
noncomputable def locSum (o : Option LocT) (s : ℕ) (g : ℕ → ℝ) (c : Cell d) : ℝ :=
  ∑ i ∈ Finset.range (locCount o), if locCell o s i = some c then g i else 0

/-- The value of `u` at location `i`; 0 if it is ignored. -/
noncomputable def locValue (o : Option LocT) (s i : ℕ) (u : Fld d ℝ) : ℝ :=
  match locCell o s i with
  | none => 0
  | some c => u c

theorem target_eq (P : Plan d) (l : LocT) (s i : ℕ) :
    l.target P.ext (fun k => (P.acc.pad : ℤ) + P.w0 k) s i = (locCell (some l) s i).map P.at := by
  classical
  unfold LocT.target locCell
  dsimp only
  by_cases h : l.Ignored d s i
  · rw [if_pos h, if_pos h]; rfl
  · rw [if_neg h, if_neg h]
    refine congrArg some (funext fun k => ?_)
    simp only [Plan.at, Plan.off]
    ring

theorem inject_at {P : Plan d} {m : ℕ} {loc : Fin m → Option (Cell d)} {o : Option LocT} {s : ℕ}
    (hm : m = locCount o) (hloc : ∀ i : Fin m, loc i = (locCell o s i).map P.at) (g : ℕ → ℝ) (c : Cell d) :
    Scalar.inject loc (fun i => g i) (P.at c) = locSum o s g c := by
  subst hm
  unfold Scalar.inject locSum
  rw [Finset.sum_range]
  refine Finset.sum_congr rfl fun i _ => ?_
  rw [hloc]
  refine if_congr ?_ rfl rfl
  cases locCell (d := d) o s i with
  | none => simp
  | some x => simp [Plan.at_inj]

theorem sample_at {P : Plan d} {m : ℕ} {loc : Fin m → Option (Cell d)} {o : Option LocT} {s : ℕ}
    (hloc : ∀ i : Fin m, loc i = (locCell o s i).map P.at) (u : Fld d ℝ) (i : Fin m) :
    Scalar.sample loc u i = locValue o s i fun c => u (P.at c) := by
  unfold Scalar.sample locValue
  rw [hloc]
  cases locCell (d := d) o s i <;> rfl

theorem cells_get (n : Fin d → ℤ) (t : IdxT) (s : ℕ) (i : Fin (t.cells n s).length) :
    (t.cells n s).get i = cellOf n (t.val s i) := by
  revert i
  unfold IdxT.cells
  intro i
  simp

/-- What is known about a list of locations that a propagator gets. -/
structure Placed (P : Plan d) (o : Option LocT) (s : ℕ) (l : List (Option (Cell d))) : Prop where
  length : l.length = locCount o
  get : ∀ i : Fin l.length, l.get i = (locCell o s i).map P.at
  inside : ∀ i < locCount o, ∀ c, locCell o s i = some c → ∀ k, (P.ext k).1 ≤ c k ∧ c k < (P.ext k).2

section
variable {A : SetupArgs d} {P : Plan d}

theorem placed (h : A.Good P) {s : ℕ} (hs : s < P.nb) (o : Option LocT) (ho : o ∈ A.srcs ++ A.rcvs)
    (hw : ∀ l, o = some l → Scalar.WholeIgnored d l s) :
    Placed P o s ((idxOpt P.ext (padBegin P.accZ P.wL) (padEnd A.staggered P.accZ P.wL) P.nb o).cells
      (P.n A.staggered) s) := by
  cases o with
  | none =>
      refine ⟨by simp [idxOpt, IdxT.cells, locCount], fun i => ?_, fun i hi => ?_⟩
      · have := i.isLt
        simp [idxOpt, IdxT.cells] at this
      · simp [locCount] at hi
  | some l =>
      have hd : 0 < d := Nat.pos_of_ne_zero h.shape_pos.1
      obtain ⟨hext, hin⟩ := h.in_extents
      have hb : l.nb = P.nb := by
        rcases List.mem_append.1 ho with h1 | h1
        · exact ((extractLocations_iff.1 h.srcs).1 l h1).batch
        · exact ((extractLocations_iff.1 h.rcvs).1 l h1).batch
      have hpad := P.acc.pad_pos
      have hp : ∀ k, 0 ≤ padBegin P.accZ P.wL k ∧ 0 ≤ padEnd A.staggered P.accZ P.wL k := fun k => by
        have := h.widths k
        simp only [Plan.w0, Plan.w1, Plan.acc] at this hpad
        simp only [padBegin, padEnd, fdEnd]
        split_ifs <;> omega
      have key : ∀ i < l.n, cellOf (P.n A.staggered)
          ((idxOf P.ext (padBegin P.accZ P.wL) (padEnd A.staggered P.accZ P.wL) l).val s i) =
          l.target P.ext (fun k => (P.acc.pad : ℤ) + P.w0 k) s i := fun i hi =>
        (Scalar.cellOf_idx (p0 := padBegin P.accZ P.wL) (p1 := padEnd A.staggered P.accZ P.wL) hd
          (fun k => (hext k).1) (fun k => (hp k).1) (fun k => (hp k).2) (hin l ho) (by omega : s < l.nb) hi
          (hw l rfl)).1
      have hlen : ((idxOpt P.ext (padBegin P.accZ P.wL) (padEnd A.staggered P.accZ P.wL) P.nb (some l)).cells
          (P.n A.staggered) s).length = l.n := by
        simp [idxOpt, IdxT.cells, idxOf]
      refine ⟨hlen, fun i => ?_, fun i hi c hc k => ?_⟩
      · have hi : (i : ℕ) < l.n := i.isLt.trans_eq hlen
        rw [← target_eq, ← key i hi]
        exact cells_get _ _ _ i
      · classical
        unfold locCell at hc
        dsimp only at hc
        split_ifs at hc with hig
        rw [← Option.some.inj hc]
        exact (hin l ho s (by omega) i hi k ((hw l rfl i hi).resolve_left hig k k.isLt)).2

theorem src_placed (h : A.Good P) {s : ℕ} (hs : s < P.nb) (tt : Bool) {j : ℕ} {o : Option LocT}
    (ho : A.srcs[j]? = some o) (hw : ∀ l, o = some l → Scalar.WholeIgnored d l s) :
    Placed P o s ((shotIn A P tt s).src j) := by
  have e : (shotIn A P tt s).src j = (idxOpt P.ext (padBegin P.accZ P.wL) (padEnd A.staggered P.accZ P.wL)
      P.nb o).cells (P.n A.staggered) s := by
    unfold ShotIn.src shotIn
    simp only [(extractLocations_iff.1 h.srcs).2, List.map_map]
    rw [List.getD_eq_getElem?_getD, List.getElem?_map, ho]
    rfl
  rw [e]
  exact placed h hs o (List.mem_append_left _ (List.mem_of_getElem? ho)) hw

theorem rcv_placed (h : A.Good P) {s : ℕ} (hs : s < P.nb) (tt : Bool) {j : ℕ} {o : Option LocT}
    (ho : A.rcvs[j]? = some o) (hw : ∀ l, o = some l → Scalar.WholeIgnored d l s) :
    Placed P o s ((shotIn A P tt s).rcv j) := by
  have e : (shotIn A P tt s).rcv j = (idxOpt P.ext (padBegin P.accZ P.wL) (padEnd A.staggered P.accZ P.wL)
      P.nb o).cells (P.n A.staggered) s := by
    unfold ShotIn.rcv shotIn
    simp only [(extractLocations_iff.1 h.rcvs).2, List.map_map]
    rw [List.getD_eq_getElem?_getD, List.getElem?_map, ho]
    rfl
  rw [e]
  exact placed h hs o (List.mem_append_right _ (List.mem_of_getElem? ho)) hw

theorem Placed.inject {o : Option LocT} {s : ℕ} {l : List (Option (Cell d))} (h : Placed P o s l) (g : ℕ → ℝ)
    (c : Cell d) : Scalar.inject l.get (fun i => g i) (P.at c) = locSum o s g c :=
  inject_at h.length h.get g c

theorem Placed.sample {o : Option LocT} {s : ℕ} {l : List (Option (Cell d))} (h : Placed P o s l) (u : Fld d ℝ)
    (i : Fin l.length) : Scalar.sample l.get u i = locValue o s i fun c => u (P.at c) := sample_at h.get u i

theorem Placed.inside' {o : Option LocT} {s : ℕ} {l : List (Option (Cell d))} (h : Placed P o s l)
    (i : Fin l.length) (c : Cell d) (e : l.get i = some (P.at c)) (k : Fin d) :
    (P.ext k).1 ≤ c k ∧ c k < (P.ext k).2 := by
  have hi := i.isLt.trans_eq h.length
  rw [h.get i] at e
  cases hc : locCell (d := d) o s i with
  | none => rw [hc] at e; cases e
  | some c' =>
      rw [hc] at e
      obtain rfl := Plan.at_inj.1 (Option.some.inj e)
      exact h.inside i hi c' hc k

theorem not_noElements (h : A.Good P) (hnb : 0 < P.nb) {m : ModelT d ℝ × PadMode} (hm : m ∈ A.models) :
    ¬Scalar.NoElements m.1 := by
  have hg := ((extractModels_iff hnb).1 h.models).1 m hm
  rintro (h1 | ⟨k, h1⟩)
  · rcases hg.batch with h2 | h2 <;> omega
  · have := h.shape_pos.2 k
    rw [hg.shape] at h1
    omega

/-- The callback frequency that the drivers get is positive. -/
theorem cb_pos {O : Opts} {cf : ℤ} {nt r : ℤ} (hcf : checkCallbackFrequency O.callbackFreq = .ok cf)
    (hr : 0 < r.toNat) (hnt : O.callback = true ∨ r ≤ nt ∨ nt ≤ 0) (h : 0 < nt.toNat) :
    0 < (O.cb cf).getD (nt.toNat / r.toNat) := by
  have hcf0 : 0 < cf := by
    unfold checkCallbackFrequency at hcf
    split at hcf
    · split_ifs at hcf with h1
      cases hcf
      omega
    · cases hcf
  unfold Opts.cb
  by_cases hc : O.callback = true
  · simp only [hc, if_true, Option.getD_some]
    omega
  · rw [if_neg hc, Option.getD_none]
    refine Nat.div_pos ?_ hr
    rcases hnt with h2 | h2 | h2
    · exact absurd h2 hc
    · omega
    · omega

theorem traces_lt (S : ShotIn d) {m : ℕ} (x : ℕ → Fin m → ℝ) {i : ℕ} (hi : i < m) :
    S.traces x i = S.down ⟨S.nt.toNat, fun t => x t ⟨i, hi⟩⟩ := dif_pos hi

theorem traces_eq (tt : Bool) (s : ℕ) {m T : ℕ} {x : ℕ → Fin m → ℝ} {y : ℕ → ℝ} {i : ℕ} (hi : i < m)
    (hT : T = P.steps) (hx : ∀ t, x t ⟨i, hi⟩ = y t) :
    (shotIn A P tt s).traces (fun t => if t < T then x t else fun _ => 0) i =
      Scalar.downS P tt ⟨P.nt.toNat, fun t => if t < P.steps then y t else 0⟩ := by
  subst hT
  rw [traces_lt _ _ hi]
  refine congrArg (Scalar.downS P tt) (congrArg (Resample.Sig.mk P.nt.toNat) (funext fun t => ?_))
  by_cases h1 : t < P.steps
  · rw [if_pos h1, if_pos h1, hx]
  · rw [if_neg h1, if_neg h1]

end

end Dw.Setup
