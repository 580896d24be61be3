import Verif.Setup.Coords
import Verif.Setup.Revalue

/-!
# Gradients of the operations around the propagators

What PyTorch's automatic differentiation does for the operations that the functions `scalar`, `scalar_born`,
`acoustic` and `elastic` apply before and after their propagators: the transposes of padding and slicing
(`common.py` 2012-2087), of `upsample` (1290-1363) and of `downsample` (1366-1451).
-/

namespace Dw.Setup

open Dw.Scalar (upS downS upAmps upS_comb downS_comb downS_len)
open Dw.Resample (Sig)

variable {d : ℕ}

/-- The cell of an array of shape `shape` whose value `torch.nn.functional.pad(u, pad, mode)` has in cell
`p`; `none` if it has the constant. -/
def padSrc (mode : PadMode) (pad : List ℤ) (shape : Fin d → ℤ) (p : Cell d) : Option (Cell d) :=
  match mode with
  | .replicate => some fun k => min (max (p k - fPadLo pad k) 0) (shape k - 1)
  | .constant =>
      if ∀ k, 0 ≤ p k - fPadLo pad k ∧ p k - fPadLo pad k < shape k then some fun k => p k - fPadLo pad k
      else none

/-- The gradient of a model of shape `shape`, from the gradient `g` of what `extract_models` makes of it
(`common.py` 2012-2087): a value that was copied to several cells gets the sum of their gradients. -/
noncomputable def extractModelT (shape : Fin d → ℤ) (ext : Fin d → ℤ × ℤ) (pad : List ℤ) (mode : PadMode)
    (g : Fld d ℝ) : Fld d ℝ := fun c =>
  let rsh : Fin d → ℤ := fun k => sliceLen (ext k).1 (ext k).2 (shape k)
  ∑ p ∈ box (fun _ => 0) (fun k => rsh k + fPadLo (reversePad pad) k + fPadHi (reversePad pad) k),
    if (padSrc mode (reversePad pad) rsh p).map (fun q k => q k + (ext k).1) = some c then g p else 0

/-- The gradient of a model of batch size `nb` in batch element `b`, from the gradients of the shots
(`expand(n_shots, -1)`). -/
noncomputable def shotsT (nb : Option ℕ) (n : ℕ) (g : ℕ → Fld d ℝ) (b : ℕ) : Fld d ℝ := fun c =>
  ∑ s ∈ Finset.range n, if (if nb.getD 1 = 1 then 0 else s) = b then g s c else 0

/-- The gradient of the argument of `downsample`, from that of its result. -/
noncomputable def downT (P : Plan d) (tt : Bool) (y : ℕ → ℝ) : ℕ → ℝ := fun j =>
  let x := downS P tt ⟨P.nt.toNat, fun t => if t = j then 1 else 0⟩
  ∑ t ∈ Finset.range x.len, y t * x.val t

/-- The gradient of a signal of `m` samples, from that of the result of `upsample`. -/
noncomputable def upT (P : Plan d) (tt : Bool) (m : ℕ) (y : ℕ → ℝ) : ℕ → ℝ := fun j =>
  ∑ t ∈ Finset.range P.nt.toNat, y t * (upS P tt ⟨m, fun t => if t = j then 1 else 0⟩).val t

/-! ### Models -/

theorem fPad_eq_padSrc (mode : PadMode) (pad : List ℤ) (shape : Fin d → ℤ) (u : Fld d ℝ) (p : Cell d) :
    fPad mode pad shape u p = match padSrc mode pad shape p with
      | none => 0
      | some c => u c := by
  cases mode
  · rfl
  · simp only [fPad, padSrc]
    split_ifs <;> rfl

/-- A model of the same sizes with other values. -/
def ModelT.withVal (m : ModelT d ℝ) (δ : ℕ → Fld d ℝ) : ModelT d ℝ := {m with val := δ}

theorem extractModelT_adj {A : SetupArgs d} {P : Plan d} (h : A.Good P) (hnb : 0 < P.nb)
    (hlt : ∀ k, (P.ext k).1 < (P.ext k).2) {m : ModelT d ℝ}
    {mode : PadMode} (hm : (m, mode) ∈ A.models) (δ : ℕ → Fld d ℝ) (b : ℕ) (g : Fld d ℝ) :
    ∑ c ∈ box (fun _ => 0) m.shape, δ b c * extractModelT m.shape P.ext
        (padList (d := d) (padBegin P.accZ P.wL) (padEnd A.staggered P.accZ P.wL)) mode g c =
      ∑ p ∈ box (fun _ => 0) (P.n A.staggered), (modelOf P.ext
        (padList (d := d) (padBegin P.accZ P.wL) (padEnd A.staggered P.accZ P.wL)) (m.withVal δ, mode)).val b p * g p := by
  obtain ⟨h1, -⟩ := (extractModels_iff hnb).1 h.models
  have hg := h1 _ hm
  have hin := h.in_extents.1
  have hsh : m.shape = A.shape := hg.shape
  have hl : ∀ k, sliceLen (P.ext k).1 (P.ext k).2 (m.shape k) = (P.ext k).2 - (P.ext k).1 := fun k => by
    have := hin k
    have := hlt k
    rw [hsh]
    simp only [sliceLen]
    omega
  have hn : (fun k : Fin d => sliceLen (P.ext k).1 (P.ext k).2 (m.shape k) +
      fPadLo (reversePad (padList (d := d) (padBegin P.accZ P.wL) (padEnd A.staggered P.accZ P.wL))) k +
      fPadHi (reversePad (padList (d := d) (padBegin P.accZ P.wL) (padEnd A.staggered P.accZ P.wL))) k) = P.n A.staggered := by
    funext k
    rw [(fPad_reversePad _ _ k).1, (fPad_reversePad _ _ k).2, hl]
    simp only [Plan.n, paddedShape]
  simp only [extractModelT, hn, Finset.mul_sum]
  rw [Finset.sum_comm]
  refine Finset.sum_congr rfl fun p _ => ?_
  simp only [modelOf, ModelT.withVal, fPad_eq_padSrc]
  cases hp : padSrc mode (reversePad (padList (d := d) (padBegin P.accZ P.wL) (padEnd A.staggered P.accZ P.wL)))
      (fun k => sliceLen (P.ext k).1 (P.ext k).2 (m.shape k)) p with
  | none => simp
  | some q =>
      simp only [Option.map_some, Option.some.injEq, mul_ite, mul_zero]
      rw [Finset.sum_ite_eq, if_pos]
      rw [mem_box]
      intro k
      have hk := hin k
      have hsk : m.shape k = A.shape k := congrFun hsh k
      cases mode with
      | replicate =>
          have hpos := hg.box rfl k
          simp only at hpos
          rw [hl] at hpos
          simp only [padSrc, Option.some.injEq] at hp
          subst hp
          show 0 ≤ min (max _ 0) (sliceLen (P.ext k).1 (P.ext k).2 (m.shape k) - 1) + (P.ext k).1 ∧
            min (max _ 0) (sliceLen (P.ext k).1 (P.ext k).2 (m.shape k) - 1) + (P.ext k).1 < _
          rw [hl]
          omega
      | constant =>
          simp only [padSrc] at hp
          split_ifs at hp with hc
          simp only [Option.some.injEq] at hp
          have := hc k
          rw [hl] at this
          subst hp
          show 0 ≤ p k - _ + (P.ext k).1 ∧ p k - _ + (P.ext k).1 < _
          omega

theorem modelOf_plus (ext : Fin d → ℤ × ℤ) (pad : List ℤ) (m : ModelT d ℝ) (mode : PadMode) (δ : ℕ → Fld d ℝ) (e : ℝ)
    (b : ℕ) (p : Cell d) :
    (modelOf ext pad (m.withVal fun s c => m.val s c + e * δ s c, mode)).val b p =
      (modelOf ext pad (m, mode)).val b p + e * (modelOf ext pad (m.withVal δ, mode)).val b p := by
  simp only [modelOf, ModelT.withVal, fPad_eq_padSrc]
  split <;> simp

/-- The sum over the shots and the sum over the batch of the model. -/
theorem shotsT_adj (nb : Option ℕ) (n : ℕ) (hn : nb.getD 1 = 1 ∨ nb.getD 1 = n) (S : Finset (Cell d))
    (δ g : ℕ → Fld d ℝ) :
    ∑ b ∈ Finset.range (nb.getD 1), ∑ c ∈ S, δ b c * shotsT nb n g b c =
      ∑ s ∈ Finset.range n, ∑ c ∈ S, δ (if nb.getD 1 = 1 then 0 else s) c * g s c := by
  simp only [shotsT, Finset.mul_sum]
  rw [Finset.sum_comm]
  rw [Finset.sum_comm (s := Finset.range n)]
  refine Finset.sum_congr rfl fun c _ => ?_
  rw [Finset.sum_comm]
  refine Finset.sum_congr rfl fun s hs => ?_
  simp only [mul_ite, mul_zero]
  rw [Finset.sum_ite_eq, if_pos]
  rw [Finset.mem_range] at hs ⊢
  split_ifs <;> omega

/-- The plan for models of the same sizes. -/
theorem SetupArgs.Good.withModels {A : SetupArgs d} {P : Plan d} (h : A.Good P) (hnb : 0 < P.nb)
    {ms : List (ModelT d ℝ × PadMode)} {mv : ℝ}
    (hs : ms.map (fun m => (m.1.nb, m.1.shape, m.2)) = A.models.map fun m => (m.1.nb, m.1.shape, m.2))
    (hv : setMaxVelR A.maxVel mv = .ok P.maxVel) :
    ({A with models := ms, maxModelVel := mv} : SetupArgs d).Good
      {P with models := ms.map (modelOf P.ext
        (padList (d := d) (padBegin P.accZ P.wL) (padEnd A.staggered P.accZ P.wL)))} := by
  have hshape : ({A with models := ms, maxModelVel := mv} : SetupArgs d).shape = A.shape := by
    unfold SetupArgs.shape
    simp only
    cases hA : A.models with
    | nil =>
        rw [hA] at hs
        cases ms with
        | nil => rfl
        | cons a l => simp at hs
    | cons b l' =>
        rw [hA] at hs
        cases ms with
        | nil => simp at hs
        | cons a l =>
            simp only [List.map_cons, List.cons.injEq, Prod.mk.injEq] at hs
            exact hs.1.2.1
  exact
  { nb := h.nb, dx := h.dx, maxVel := hv, cfl := h.cfl, acc := h.acc, width := h.width, freq := h.freq
    nt := h.nt, interval := h.interval, ff := h.ff, tf := h.tf, ampsMatch := h.ampsMatch, amps := h.amps
    ext := by
      rw [hshape]
      exact h.ext
    models := by
      rw [hshape]
      refine (extractModels_iff hnb).2 ⟨fun m hm => ?_, rfl⟩
      have : (m.1.nb, m.1.shape, m.2) ∈ A.models.map fun m => (m.1.nb, m.1.shape, m.2) := by
        rw [← hs]
        exact List.mem_map.2 ⟨m, hm, rfl⟩
      obtain ⟨m', hm', e⟩ := List.mem_map.1 this
      simp only [Prod.mk.injEq] at e
      have hg := ((extractModels_iff hnb).1 h.models).1 m' hm'
      refine ⟨by rw [← e.2.1]; exact hg.shape, by rw [← e.1]; exact hg.batch, ?_⟩
      rw [← e.2.1, ← e.2.2]
      exact hg.box
    srcs := h.srcs, rcvs := h.rcvs, wfs := h.wfs }

/-! ### Resampling -/

/-- A linear map that only looks at the first `n` values is given by its values for unit vectors. -/
theorem eq_sum_unit {n : ℕ} (L : (ℕ → ℝ) → ℝ) (hc : ∀ α β x y, L (fun t => α * x t + β * y t) = α * L x + β * L y)
    (hl : ∀ x y, (∀ t < n, x t = y t) → L x = L y) (x : ℕ → ℝ) :
    L x = ∑ j ∈ Finset.range n, x j * L fun t => if t = j then 1 else 0 := by
  have h0 : L (fun _ => 0) = 0 := by simpa using hc 0 0 (fun _ => 0) fun _ => 0
  have key : ∀ m, L (fun t => if t < m then x t else 0) =
      ∑ j ∈ Finset.range m, x j * L fun t => if t = j then 1 else 0 := by
    intro m
    induction m with
    | zero => simpa using h0
    | succ m ih =>
        rw [Finset.sum_range_succ, ← ih, ← one_mul (L fun t => if t < m then x t else 0), ← hc]
        congr 1
        funext t
        rcases lt_trichotomy t m with h | h | h
        · rw [if_pos (by omega), if_pos h, if_neg (by omega)]; ring
        · rw [if_pos (by omega), if_neg (by omega), if_pos h, h]; ring
        · rw [if_neg (by omega), if_neg (by omega), if_neg (by omega)]; ring
  rw [← key]
  exact hl _ _ fun t ht => (if_pos ht).symm

theorem downS_local {A : SetupArgs d} {P : Plan d} (h : A.Good P) (tt : Bool) {x y : ℕ → ℝ}
    (hxy : ∀ t < P.nt.toNat, x t = y t) {t : ℕ} (ht : t < (downS P tt ⟨P.nt.toNat, x⟩).len) :
    (downS P tt ⟨P.nt.toNat, x⟩).val t = (downS P tt ⟨P.nt.toNat, y⟩).val t := by
  have hv := Scalar.SetupGood.validate h
  have hr := Scalar.SetupGood.ratio_pos h
  obtain ⟨h1, h2⟩ := Scalar.SetupGood.fracs h
  obtain ⟨n, hn⟩ := Scalar.SetupGood.nt_eq h
  by_cases h3 : P.nt.toNat = 0 ∨ P.ratio = 1
  · have e : ∀ z, downS P tt ⟨P.nt.toNat, z⟩ = ⟨P.nt.toNat, z⟩ := fun z => by
      unfold downS Resample.downsample
      rw [hv]
      simp only [and_true, if_pos h3]
    rw [e] at ht ⊢
    rw [e]
    exact hxy t ht
  · obtain ⟨r, hr'⟩ := Int.eq_ofNat_of_zero_le (by omega : 0 ≤ P.ratio)
    have hr0 : 0 < r := by omega
    have hrm : r ≤ P.nt.toNat := by
      have : P.nt.toNat = n * r := by rw [hn, hr']; exact Int.toNat_natCast _
      rcases Nat.eq_zero_or_pos n with h4 | h4
      · exact absurd (.inl (by rw [this, h4, zero_mul])) h3
      · rw [this]; exact Nat.le_mul_of_pos_left r h4
    have h1' : ¬(r = 1 ∧ (0 : ℝ) = 0) := fun h4 => h3 (.inr (by rw [hr']; exact_mod_cast h4.1))
    obtain ⟨u, e1, f1⟩ := Resample.downsample_eq P.nt.toNat x hr0 hrm h1 h2 tt 0 h1'
    obtain ⟨w, e2, f2⟩ := Resample.downsample_eq P.nt.toNat y hr0 hrm h1 h2 tt 0 h1'
    unfold downS
    rw [hr', e1, e2]
    show u t = w t
    rw [f1, f2]
    congr 1
    refine Finset.sum_congr rfl fun k _ => ?_
    congr 1
    exact Finset.sum_congr rfl fun j hj => by rw [hxy j (Finset.mem_range.1 hj)]

theorem upS_local {A : SetupArgs d} {P : Plan d} (h : A.Good P) (tt : Bool) {m : ℕ} {x y : ℕ → ℝ}
    (hxy : ∀ t < m, x t = y t) {t : ℕ} (hm : P.nt = m * P.ratio) (ht : t < P.nt.toNat) :
    (upS P tt ⟨m, x⟩).val t = (upS P tt ⟨m, y⟩).val t := by
  have hv := Scalar.SetupGood.validate h
  have hr := Scalar.SetupGood.ratio_pos h
  obtain ⟨h1, h2⟩ := Scalar.SetupGood.fracs h
  obtain ⟨r, hr'⟩ := Int.eq_ofNat_of_zero_le (by omega : 0 ≤ P.ratio)
  have hnt : P.nt.toNat = m * r := by rw [hm, hr']; exact Int.toNat_natCast _
  rw [hnt] at ht
  by_cases h3 : m = 0 ∨ P.ratio = 1
  · have e : ∀ z, upS P tt ⟨m, z⟩ = ⟨m, z⟩ := fun z => by
      unfold upS Resample.upsample
      rw [hv]
      simp only [if_pos h3]
    rw [e, e]
    refine hxy t ?_
    rcases h3 with h3 | h3
    · rw [h3] at ht; simp at ht
    · have : r = 1 := by omega
      rw [this] at ht
      omega
  · obtain ⟨u, e1, f1⟩ := Resample.upsample_eq m x (by omega) (by omega : 1 < r) h1 h2 tt
    obtain ⟨w, e2, f2⟩ := Resample.upsample_eq m y (by omega) (by omega : 1 < r) h1 h2 tt
    unfold upS
    rw [hr', e1, e2]
    show u t = w t
    rw [f1, f2]
    congr 2
    refine Finset.sum_congr rfl fun k _ => ?_
    congr 1
    exact Finset.sum_congr rfl fun j hj => by rw [hxy j (Finset.mem_range.1 hj)]

theorem downT_adj {A : SetupArgs d} {P : Plan d} (h : A.Good P) (tt : Bool) (x y : ℕ → ℝ) :
    ∑ t ∈ Finset.range (downS P tt ⟨P.nt.toNat, x⟩).len, y t * (downS P tt ⟨P.nt.toNat, x⟩).val t =
      ∑ j ∈ Finset.range P.nt.toNat, downT P tt y j * x j := by
  have hlen : ∀ z, (downS P tt ⟨P.nt.toNat, z⟩).len = (downS P tt ⟨P.nt.toNat, x⟩).len := fun z =>
    downS_len h tt x z
  have := eq_sum_unit (n := P.nt.toNat) (fun z => ∑ t ∈ Finset.range (downS P tt ⟨P.nt.toNat, x⟩).len,
      y t * (downS P tt ⟨P.nt.toNat, z⟩).val t)
    (fun α β u w => by
      simp only [downS_comb h, Sig.comb, mul_add, Finset.sum_add_distrib, Finset.mul_sum]
      congr 1 <;> exact Finset.sum_congr rfl fun _ _ => by ring)
    (fun u w huw => Finset.sum_congr rfl fun t ht => by
      rw [downS_local h tt huw (by rw [hlen]; exact Finset.mem_range.1 ht)]) x
  refine this.trans ?_
  refine Finset.sum_congr rfl fun j _ => ?_
  simp only [downT, hlen]
  ring

theorem upT_adj {A : SetupArgs d} {P : Plan d} (h : A.Good P) (tt : Bool) {m : ℕ} (hm : P.nt = m * P.ratio)
    (x y : ℕ → ℝ) :
    ∑ t ∈ Finset.range P.nt.toNat, (upS P tt ⟨m, x⟩).val t * y t =
      ∑ j ∈ Finset.range m, x j * upT P tt m y j := by
  have := eq_sum_unit (n := m) (fun z => ∑ t ∈ Finset.range P.nt.toNat, (upS P tt ⟨m, z⟩).val t * y t)
    (fun α β u w => by
      have : ∀ t, (upS P tt ⟨m, fun t => α * u t + β * w t⟩).val t =
          α * (upS P tt ⟨m, u⟩).val t + β * (upS P tt ⟨m, w⟩).val t := fun t => by
        rw [show (⟨m, fun t => α * u t + β * w t⟩ : Sig ℝ) = Sig.comb α β ⟨m, u⟩ ⟨m, w⟩ from rfl,
          upS_comb h tt α β ⟨m, u⟩ ⟨m, w⟩ rfl]
        rfl
      simp only [this, add_mul, Finset.sum_add_distrib, Finset.mul_sum]
      congr 1 <;> exact Finset.sum_congr rfl fun _ _ => by ring)
    (fun u w huw => Finset.sum_congr rfl fun t ht => by
      rw [upS_local h tt huw hm (Finset.mem_range.1 ht)]) x
  refine this.trans ?_
  refine Finset.sum_congr rfl fun j _ => ?_
  simp only [upT]
  congr 1
  exact Finset.sum_congr rfl fun _ _ => by ring

end Dw.Setup
