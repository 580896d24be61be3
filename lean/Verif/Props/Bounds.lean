import Verif.Scalar.Flat
import Verif.Props.ScalarShots

/-!
# No access outside an array

`fwdFlat` and `bwdFlat` (`Verif/Scalar/Flat.lean`) are the kernel bodies on flat buffers with the index
arithmetic of the C code; they have no result if one of the elements they read or write is outside
its buffer.
-/

namespace Dw.Scalar

open Setup (InShape rowMajor)

variable {d ns nr S P : ℕ} {R : Type*} [Field R]

/-- Number of models passed for `S` shots. -/
def Batch.nModels (B : Batch d ns nr S R) : ℕ := if B.batched then S else 1

/-- Number of blocks of the array model gradients are accumulated in with `P` threads (`scalar.py`
1177-1203): one per shot, one per thread, or one. -/
def Batch.nGrads (B : Batch d ns nr S R) (P : ℕ) : ℕ := if B.batched then S else max P 1

/-- **C23**, forward kernel: at every cell the loops visit, for every shot, every element read or
written is inside its array, and the values computed are those of the cell-wise model. The arrays
hold one field per shot (wavefields), `nModels` models, one profile per dimension, and, if
snapshots are taken, `K` snapshots per shot; `q < K` is the snapshot written. -/
theorem C23_forward_in_bounds (B : Batch d ns nr S R) (s : Fin S) (h : (B.alone s).WF) (save : Bool)
    (wfc wfp : ℕ → Fld d R) (psi psin zeta : Fin d → ℕ → Fld d R) (K q : ℕ) (hq : q < K)
    (F : FwdFlat d R)
    (hF : F.Holds (B.alone s).fwdArgs S B.nModels B.v wfc wfp psi psin zeta)
    (hst : save = true → F.store.len = K * S * ∏ k, B.base.n k)
    (r : Fin d → Region) (c : Cell d) (hv : (r, c) ∈ (B.alone s).fwdArgs.visits) (old : R) :
    ∃ o, fwdFlat (B.alone s).fwdArgs save
        (if B.batched then s * ∏ k, B.base.n k else 0) (s * ∏ k, B.base.n k)
        (q * S * (∏ k, B.base.n k) + s * ∏ k, B.base.n k) F r c = some o ∧
      let f := fwdBody (B.alone s).fwdArgs save (wfc s) (fun k => psi k s) r c
        ⟨wfp s c, fun k => psin k s c, fun k => zeta k s c, old⟩
      o.1 = f.wfp ∧ (save = true → o.2.1 = f.store) ∧
      ∀ k, r k ≠ .mid → o.2.2 k = (f.psin k, f.zeta k) := by
  have hc := CArgs.inner_of_mem_visits (Cfg.ordered_fwd h) hv
  have hs := s.2
  have hprod : 0 ≤ ∏ k, B.base.n k := Finset.prod_nonneg fun k _ => by
    have := hc k
    change _ ∧ c k < B.base.n k - _ at this
    omega
  have hm : (if B.batched then (s : ℕ) else 0) < B.nModels := by
    unfold Batch.nModels; split_ifs <;> omega
  have key := fwdFlat_eq (save := save) (storeOff := q * S * (∏ k, B.base.n k) + s * ∏ k, B.base.n k)
    hF hs hm (by unfold Batch.alone; simp only [Cfg.fwdArgs]; split_ifs <;> rfl) hc (fun hsv => by
      rw [hst hsv]
      change _ ∧ _ + ∏ k, B.base.n k ≤ _
      have h1 : ((q : ℤ) * S + s + 1) * ∏ k, B.base.n k ≤ (K * S : ℤ) * ∏ k, B.base.n k := by
        refine mul_le_mul_of_nonneg_right ?_ hprod
        have : ((q : ℤ) + 1) * S ≤ K * S := mul_le_mul_of_nonneg_right (by omega) (by omega)
        have : (s : ℤ) + 1 ≤ S := by omega
        nlinarith
      constructor
      · positivity
      · nlinarith) r old
  have e : ((if B.batched then (s : ℕ) else 0 : ℕ) : ℤ) * ∏ k, (B.alone s).fwdArgs.n k =
      if B.batched then s * ∏ k, B.base.n k else 0 := by
    split_ifs
    · rfl
    · simp
  rw [e] at key
  exact key

/-- **C23**, backward kernel. `g` is the block of the gradient array the shot's thread uses, `q` the
snapshot that is read. -/
theorem C23_backward_in_bounds (B : Batch d ns nr S R) (s : Fin S) (h : (B.alone s).WF) (load : Bool)
    (th : Fin S → Fin P) (wfc wfp : ℕ → Fld d R) (psi psin zeta zetan : Fin d → ℕ → Fld d R)
    (store grad : ℕ → Fld d R) (K q : ℕ) (hq : q < K) (F : BwdFlat d R)
    (hF : F.Holds (B.alone s).bwdArgs S B.nModels (B.nGrads P) (K * S)
      (fun i c => B.v i c ^ 2 * B.base.dt ^ 2) wfc wfp psi psin zeta zetan store grad)
    (r : Fin d → Region) (c : Cell d) (hv : (r, c) ∈ (B.alone s).bwdArgs.visits) :
    ∃ o, bwdFlat (B.alone s).bwdArgs load
        (if B.batched then s * ∏ k, B.base.n k else 0) (B.block th s * ∏ k, B.base.n k)
        (s * ∏ k, B.base.n k) ((q * S + s) * ∏ k, B.base.n k) F r c = some o ∧
      let f := bwdBody (B.alone s).bwdArgs load (store (q * S + s)) (wfc s) (fun k => psi k s)
        (fun k => zeta k s) r c
        ⟨wfp s c, fun k => psin k s c, fun k => zetan k s c, grad (B.block th s) c⟩
      o.1 = f.wfp ∧ (load = true → o.2.1 = f.grad) ∧
      ∀ k, r k ≠ .mid → o.2.2 k = (f.psin k, f.zetan k) := by
  have hc := CArgs.inner_of_mem_visits (Cfg.ordered_bwd h) hv
  have hs := s.2
  have hm : (if B.batched then (s : ℕ) else 0) < B.nModels := by
    unfold Batch.nModels; split_ifs <;> omega
  have hg : B.block th s < B.nGrads P := by
    have := (th s).2
    unfold Batch.block Batch.nGrads
    split_ifs <;> omega
  have hk : q * S + s < K * S := by
    have := Nat.mul_le_mul_right S (show q + 1 ≤ K from hq)
    rw [Nat.add_mul] at this
    omega
  have key := bwdFlat_eq (load := load) hF hs hm (fun _ => ⟨hg, hk⟩)
    (by unfold Batch.alone; simp only [Cfg.bwdArgs]; split_ifs <;> rfl) hc r
  have e : ((if B.batched then (s : ℕ) else 0 : ℕ) : ℤ) * ∏ k, (B.alone s).bwdArgs.n k =
      if B.batched then s * ∏ k, B.base.n k else 0 := by
    split_ifs
    · rfl
    · simp
  rw [e] at key
  push_cast at key
  exact key

/-- **C23**, sources and receivers: a location that is not ignored addresses an element of the shot's
part of the wavefield array, and its amplitude, `f[t * n_shots * n + shot * n + i]`, an element of the
amplitude array of `nt` time steps. -/
theorem C23_locations_in_bounds (B : Batch d ns nr S R) (s : Fin S) (h : (B.alone s).WF) (w : ℕ → Fld d R)
    (F : Buf R) (hF : Dw.Holds S B.base.n w F) (nt t : ℕ) (ht : t < nt) :
    (∀ i c, B.src s i = some c →
      F.rd (s * (∏ k, B.base.n k) + rowMajor B.base.n c) = some (w s c)) ∧
    (∀ i c, B.rcv s i = some c →
      F.rd (s * (∏ k, B.base.n k) + rowMajor B.base.n c) = some (w s c)) ∧
    ∀ m (i : Fin m), t * S * m + s * m + i < nt * S * m := by
  have hin : ∀ c, (B.alone s).Inner c → InShape B.base.n c := fun c hc k => by
    have := hc k
    change ((B.base.acc.pad : ℤ) ≤ c k ∧ c k < B.base.n k - B.base.acc.pad) at this
    omega
  refine ⟨fun i c hi => hF.rd s.2 (hin c (h.src_in i c hi)),
    fun i c hi => hF.rd s.2 (hin c (h.rcv_in i c hi)), fun m i => ?_⟩
  have h1 : (t * S + s + 1) * m ≤ nt * S * m := by
    refine Nat.mul_le_mul_right m ?_
    have := Nat.mul_le_mul_right S (show t + 1 ≤ nt from ht)
    have := s.2
    rw [Nat.add_mul] at *
    omega
  have := i.2
  rw [Nat.add_mul, Nat.add_mul] at h1
  omega

/-- A buffer that holds given fields. -/
noncomputable def bufOf (m : ℕ) (n : Fin d → ℤ) (u : ℕ → Fld d R) : Buf R := by
  classical exact
  { len := m * ∏ k, n k
    val := fun i => if h : ∃ sc : ℕ × Cell d, InShape n sc.2 ∧ i = sc.1 * (∏ k, n k) + rowMajor n sc.2 then
      u h.choose.1 h.choose.2 else 0 }

theorem bufOf_holds (m : ℕ) (n : Fin d → ℤ) (u : ℕ → Fld d R) : Dw.Holds m n u (bufOf m n u) where
  len := rfl
  val := by
    intro s _ c hc
    have hex : ∃ sc : ℕ × Cell d, InShape n sc.2 ∧
        s * (∏ k, n k) + rowMajor n c = sc.1 * (∏ k, n k) + rowMajor n sc.2 := ⟨(s, c), hc, rfl⟩
    simp only [bufOf]
    rw [dif_pos hex]
    obtain ⟨h1, h2⟩ := hex.choose_spec
    have b1 := Setup.rowMajor_bound hc
    have b2 := Setup.rowMajor_bound h1
    have e1 : (s : ℤ) = hex.choose.1 := by
      generalize (hex.choose.1 : ℤ) = x at *
      generalize rowMajor n hex.choose.2 = y at *
      generalize ∏ k, n k = p at *
      rcases lt_trichotomy (s : ℤ) x with hlt | he | hlt
      · have := mul_le_mul_of_nonneg_right (show (s : ℤ) + 1 ≤ x from hlt) (show 0 ≤ p by omega)
        nlinarith
      · exact he
      · have := mul_le_mul_of_nonneg_right (show x + 1 ≤ (s : ℤ) from hlt) (show 0 ≤ p by omega)
        nlinarith
    have e2 : rowMajor n c = rowMajor n hex.choose.2 := by
      have : (s : ℤ) * ∏ k, n k = hex.choose.1 * ∏ k, n k := congrArg (· * ∏ k, n k) e1
      linarith
    have e3 := Setup.rowMajor_inj hc h1 e2
    rw [← e3]
    congr 1
    exact_mod_cast e1.symm

/-- The hypotheses of C23 can be met: two shots of the example that share a model. -/
example : ∃ F : FwdFlat 2 ℚ, F.Holds (exBatch.alone 1).fwdArgs 2 exBatch.nModels exBatch.v
      (fun _ _ => 1) (fun _ _ => 2) (fun _ _ _ => 3) (fun _ _ _ => 4) (fun _ _ _ => 5) ∧
    F.store.len = (3 : ℕ) * (2 : ℕ) * ∏ k, exBatch.base.n k ∧
    (fun _ => Region.lo, ![2, 2]) ∈ (exBatch.alone 1).fwdArgs.visits := by
  refine ⟨⟨bufOf _ _ _, bufOf 2 exBatch.base.n fun _ _ => 1, bufOf 2 exBatch.base.n fun _ _ => 2,
    fun k => bufOf 2 exBatch.base.n fun _ _ => 3, fun k => bufOf 2 exBatch.base.n fun _ _ => 4,
    fun k => bufOf 2 exBatch.base.n fun _ _ => 5, ⟨_, fun _ => 0⟩, fun k => ⟨_, (exBatch.alone 1).fwdArgs.a k⟩,
    fun k => ⟨_, (exBatch.alone 1).fwdArgs.b k⟩, fun k => ⟨_, (exBatch.alone 1).fwdArgs.db k⟩⟩,
    ⟨bufOf_holds _ _ _, bufOf_holds _ _ _, bufOf_holds _ _ _, fun k => bufOf_holds _ _ _,
      fun k => bufOf_holds _ _ _, fun k => bufOf_holds _ _ _, fun k => ⟨rfl, fun _ _ _ => rfl⟩,
      fun k => ⟨rfl, fun _ _ _ => rfl⟩, fun k => ⟨rfl, fun _ _ _ => rfl⟩⟩, rfl, ?_⟩
  rw [CArgs.mem_visits]
  decide +kernel

end Dw.Scalar
