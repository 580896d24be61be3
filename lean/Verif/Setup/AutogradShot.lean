import Verif.Scalar.UserGrad

/-!
# Gradients of the operations around the propagators, for one shot

The parts that the gradients of `scalar_born`, `acoustic` and `elastic` share.
-/

namespace Dw.Setup

open Dw.Scalar (upS downS upAmps upS_comb traceInner plusAmp plusWf)
open Dw.Resample (Sig)

variable {d : ℕ}

/-! ### Definitions -/

/-- `(gr * amplitudes).sum()` over `n` traces. -/
noncomputable def tracePair (n : ℕ) (gr : ℕ → ℕ → ℝ) (x : ℕ → Sig ℝ) : ℝ :=
  ∑ i ∈ Finset.range n, ∑ t ∈ Finset.range (x i).len, gr i t * (x i).val t

/-- `(δ * amplitudes.grad).sum()` for one shot. -/
noncomputable def ampPair (a : Option AmpT) (δ x : ℕ → ℕ → ℝ) : ℝ :=
  match a with
  | none => 0
  | some a => ∑ i ∈ Finset.range a.n, ∑ t ∈ Finset.range a.nt, δ i t * x i t

/-- The gradient of the amplitudes `a` of one shot, from the gradient `y` of what `upsample` makes of them. -/
noncomputable def ampGrad (P : Plan d) (tt : Bool) (a : Option AmpT) {n : ℕ} (y : ℕ → Fin n → ℝ) : ℕ → ℕ → ℝ :=
  fun i => upT P tt ((a.map AmpT.nt).getD 0) fun t => if h : i < n then y t ⟨i, h⟩ else 0

/-- The amplitudes with other values. -/
def ampWith (a : Option AmpT) (δ : ℕ → ℕ → ℕ → ℝ) : Option AmpT := a.map fun a => {a with val := δ}

/-- The padding of a model. -/
def Plan.padding (P : Plan d) (staggered : Bool) : List ℤ :=
  padList (d := d) (padBegin P.accZ P.wL) (padEnd staggered P.accZ P.wL)

/-- The gradient of a model, from those of the padded models of the shots. -/
noncomputable def modelGrad (P : Plan d) (staggered : Bool) (m : ModelT d ℝ × PadMode) (g : ℕ → Fld d ℝ) :
    ℕ → Fld d ℝ := fun j =>
  extractModelT m.1.shape P.ext (P.padding staggered) m.2 (shotsT m.1.nb P.nb g j)

/-- The direction of the padded model of a shot. -/
noncomputable def padDir (P : Plan d) (staggered : Bool) (m : ModelT d ℝ × PadMode) (δ : ℕ → Fld d ℝ) (s : ℕ) : Fld d ℝ :=
  (modelOf P.ext (P.padding staggered) (m.1.withVal δ, m.2)).val (if m.1.nb.getD 1 = 1 then 0 else s)

/-- `m + e δ` -/
def plusModel (e : ℝ) (m : ModelT d ℝ) (δ : ℕ → Fld d ℝ) : ModelT d ℝ := m.withVal fun s c => m.val s c + e * δ s c

/-- `P` with the padded models of `ms`. -/
noncomputable def Plan.withModels (P : Plan d) (staggered : Bool) (ms : List (ModelT d ℝ × PadMode)) : Plan d :=
  {P with models := ms.map (modelOf P.ext (P.padding staggered))}

/-! ### Lemmas -/

variable {A : SetupArgs d} {P : Plan d}

theorem tracePair_eq (h : A.Good P) (tt : Bool) (s : ℕ) {m : ℕ} (gr : ℕ → ℕ → ℝ) (x : ℕ → Fin m → ℝ) :
    tracePair m gr ((shotIn A P tt s).traces x) = traceInner P.nt.toNat (fun t i => downT P tt (gr i) t) x := by
  unfold tracePair
  rw [← Fin.sum_univ_eq_sum_range (fun i => ∑ t ∈ Finset.range ((shotIn A P tt s).traces x i).len,
    gr i t * ((shotIn A P tt s).traces x i).val t)]
  have e : ∀ i : Fin m, (shotIn A P tt s).traces x i = downS P tt ⟨P.nt.toNat, fun t => x t i⟩ := fun i =>
    traces_lt _ _ i.isLt
  simp only [e, downT_adj h, traceInner]
  rw [Finset.sum_comm]

theorem upAmps_plus' (h : A.Good P) (tt : Bool) (a : Option AmpT) (e : ℝ) (δ : ℕ → ℕ → ℕ → ℝ) (s t i : ℕ) :
    upAmps P tt (a.map fun a => plusAmp e a δ) s t i = upAmps P tt a s t i +
      e * upAmps P tt (ampWith a δ) s t i := by
  cases a with
  | none => simp [upAmps, ampWith]
  | some a =>
      have := upS_comb h tt 1 e ⟨a.nt, a.val s i⟩ ⟨a.nt, δ s i⟩ rfl
      have := congrArg (fun x : Sig ℝ => x.val t) this
      simp only [Sig.comb, one_mul] at this
      exact this

theorem upAmps_zero (h : A.Good P) (tt : Bool) (a : Option AmpT) (s t i : ℕ) :
    upAmps P tt (ampWith a fun _ _ _ => 0) s t i = 0 := by
  cases a with
  | none => simp [upAmps, ampWith]
  | some a =>
      have := upS_comb h tt 0 0 ⟨a.nt, fun _ => 0⟩ ⟨a.nt, fun _ => 0⟩ rfl
      have := congrArg (fun x : Sig ℝ => x.val t) this
      simp only [Sig.comb, zero_mul, add_zero] at this
      exact this

theorem amps_fit (h : A.Good P) {j : ℕ} {a : AmpT} {o : Option LocT} (ha : A.amps[j]? = some (some a))
    (ho : A.srcs[j]? = some o) : a.n = locCount o ∧ P.nt = a.nt * P.ratio := by
  constructor
  · have h1 := h.ampsMatch
    unfold checkAmpsMatch at h1
    split_ifs at h1 with h2
    rw [firstErr_ok] at h1
    have h3 : ((A.amps.map (Option.map AmpT.n)).zip (A.srcs.map (Option.map LocT.n)))[j]? =
        some (some a.n, o.map LocT.n) := by
      rw [List.getElem?_zip_eq_some]
      simp only [List.getElem?_map, ha, ho, Option.map_some, and_self]
    have h4 := List.mem_of_getElem? h3
    cases o with
    | none => simpa using h1 _ (List.mem_map.2 ⟨_, h4, rfl⟩)
    | some l =>
        have := h1 _ (List.mem_map.2 ⟨_, h4, rfl⟩)
        exact not_not.1 (raiseIf_ok.1 this)
  · exact (checkAmps_ok.1 h.amps a (List.mem_of_getElem? ha)).2.1.symm

/-- The gradient with respect to the amplitudes, through `upsample`. -/
theorem ampPair_eq' (h : A.Good P) (tt : Bool) (s : ℕ) {j : ℕ} {a : Option AmpT} {o : Option LocT}
    (ha : A.amps[j]? = some a) (ho : A.srcs[j]? = some o) {n : ℕ} (hn : n = locCount o) (δ : ℕ → ℕ → ℕ → ℝ)
    (y : ℕ → Fin n → ℝ) :
    traceInner P.nt.toNat (fun t (i : Fin n) => upAmps P tt (ampWith a δ) s t i) y =
      ampPair a (δ s) (ampGrad P tt a y) := by
  unfold ampPair ampGrad
  cases a with
  | none => simp [traceInner, upAmps, ampWith]
  | some a =>
      obtain ⟨hn', hnt⟩ := amps_fit h ha ho
      have hn2 : a.n = n := by omega
      simp only [hn2, Option.map_some, Option.getD_some]
      rw [← Fin.sum_univ_eq_sum_range (fun i => ∑ t ∈ Finset.range a.nt, δ s i t * upT P tt a.nt (fun t =>
        if h : i < n then y t ⟨i, h⟩ else 0) t)]
      simp only [traceInner]
      rw [Finset.sum_comm]
      refine Finset.sum_congr rfl fun i _ => ?_
      rw [← upT_adj h tt hnt]
      refine Finset.sum_congr rfl fun t _ => ?_
      simp only [i.isLt, dif_pos, upAmps, ampWith, Option.map_some, Fin.eta]

/-- The gradient of a model and the direction of the padded models. -/
theorem modelGrad_adj (h : A.Good P) (hnb : 0 < P.nb) (hlt : ∀ k, (P.ext k).1 < (P.ext k).2)
    {m : ModelT d ℝ × PadMode} (hm : m ∈ A.models) (δ g : ℕ → Fld d ℝ) :
    ∑ j ∈ Finset.range (m.1.nb.getD 1), ∑ c ∈ box (fun _ => 0) m.1.shape, δ j c * modelGrad P A.staggered m g j c =
      ∑ s ∈ Finset.range P.nb, ∑ p ∈ box (fun _ => 0) (P.n A.staggered), padDir P A.staggered m δ s p * g s p := by
  have hbatch := (((extractModels_iff hnb).1 h.models).1 m hm).batch
  have e1 := shotsT_adj m.1.nb P.nb hbatch (box (fun _ => 0) (P.n A.staggered))
    (modelOf P.ext (P.padding A.staggered) (m.1.withVal δ, m.2)).val g
  refine Eq.trans ?_ e1
  refine Finset.sum_congr rfl fun j _ => ?_
  exact extractModelT_adj h hnb hlt (m := m.1) (mode := m.2) hm δ j _

/-- The padded model of a shot after a change of the model. -/
theorem model_plus (h : A.Good P) (hnb : 0 < P.nb) {j : ℕ} {m : ModelT d ℝ × PadMode} (hm : A.models[j]? = some m)
    {A' : SetupArgs d} {ms : List (ModelT d ℝ × PadMode)} {δ : ℕ → Fld d ℝ} {e : ℝ}
    (hm' : ms[j]? = some (plusModel e m.1 δ, m.2)) (tt : Bool) (s : ℕ) (p : Cell d) :
    (shotIn A' (P.withModels A.staggered ms) tt s).model j p =
      (shotIn A P tt s).model j p + e * padDir P A.staggered m δ s p := by
  have h2 := ((extractModels_iff hnb).1 h.models).2
  unfold ShotIn.model shotIn Plan.withModels
  simp only [h2, List.map_map]
  rw [List.getD_eq_getElem?_getD, List.getD_eq_getElem?_getD, List.getElem?_map, List.getElem?_map, hm, hm']
  exact modelOf_plus _ _ _ _ _ _ _ _

theorem model_same (h : A.Good P) (hnb : 0 < P.nb) {j : ℕ} {m : ModelT d ℝ × PadMode} (hm : A.models[j]? = some m)
    {A' : SetupArgs d} {ms : List (ModelT d ℝ × PadMode)} (hm' : ms[j]? = some m) (tt : Bool) (s : ℕ) :
    (shotIn A' (P.withModels A.staggered ms) tt s).model j = (shotIn A P tt s).model j := by
  have h2 := ((extractModels_iff hnb).1 h.models).2
  unfold ShotIn.model shotIn Plan.withModels
  simp only [h2, List.map_map]
  rw [List.getD_eq_getElem?_getD, List.getD_eq_getElem?_getD, List.getElem?_map, List.getElem?_map, hm, hm']
  rfl

theorem amp_of (A : SetupArgs d) (P : Plan d) (tt : Bool) (s : ℕ) {j : ℕ} {a : Option AmpT}
    (ha : A.amps[j]? = some a) : (shotIn A P tt s).amp j = upAmps P tt a s := by
  unfold ShotIn.amp shotIn
  simp only
  rw [List.getD_eq_getElem?_getD, List.getElem?_map, ha]
  rfl

theorem src_length (h : A.Good P) (tt : Bool) (s : ℕ) {j : ℕ} {o : Option LocT} (ho : A.srcs[j]? = some o) :
    ((shotIn A P tt s).src j).length = locCount o := by
  unfold ShotIn.src shotIn
  simp only [(extractLocations_iff.1 h.srcs).2, List.map_map]
  rw [List.getD_eq_getElem?_getD, List.getElem?_map, ho]
  cases o
  · simp [IdxT.cells, idxOpt, locCount]
  · simp [IdxT.cells, idxOpt, locCount, idxOf]

/-- A given wavefield and its change. -/
theorem wf_plus (e : ℝ) (w : Option (WfT d)) (δ : ℕ → Fld d ℝ) (s : ℕ) :
    ((w.map fun w => plusWf e w δ).map fun w => w.val s).getD (fun _ => 0) = fun c =>
      ((w.map fun w => w.val s).getD fun _ => 0) c + e * (if w.isSome then δ s else fun _ => 0) c := by
  cases w <;> simp [plusWf]

theorem wf_plus_size (e : ℝ) (w : Option (WfT d)) (δ : ℕ → Fld d ℝ) :
    (w.map fun w => plusWf e w δ).map WfT.size = w.map WfT.size := by
  cases w <;> simp [plusWf, WfT.size]

theorem amp_plus_size (e : ℝ) (a : Option AmpT) (δ : ℕ → ℕ → ℕ → ℝ) :
    (a.map fun a => plusAmp e a δ).map AmpT.size = a.map AmpT.size := by
  cases a <;> simp [plusAmp, AmpT.size]

end Dw.Setup
