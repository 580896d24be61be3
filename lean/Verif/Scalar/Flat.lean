import Verif.Core.Flat
import Verif.Scalar.Visits

/-!
# The scalar kernels on flat buffers

Restates the kernel bodies of `scalar.c` (forward 349-396, backward 649-692) with the flat indices of
the C code (`ND_INDEX`, `scalar.c` 78-90, `shot_i`) on buffers of finite length, in which an access
outside a buffer has no result; and shows that on the cells the loops visit every access is inside
and the result is that of `fwdBody` / `bwdBody`.
-/

namespace Dw.Scalar

open Setup (InShape rowMajor stride)

variable {d ns nr : ℕ} {R : Type*} [Field R]

/-- Buffers of the forward kernel.  `store` is the snapshot slot array `w_store_1_t` points into,
with the slot at `storeOff`. -/
structure FwdFlat (d : ℕ) (R : Type*) where
  v : Buf R
  wfc : Buf R
  wfp : Buf R
  psi : Fin d → Buf R
  psin : Fin d → Buf R
  zeta : Fin d → Buf R
  store : Buf R
  a : Fin d → Buf R
  b : Fin d → Buf R
  db : Fin d → Buf R

/-- The statements for one dimension (`scalar.c` 357-391): contribution to `w_sum`, and the new psi and
zeta.  `i` is the flat index without, `si` with the shot offset. -/
def fwdDimO (A : CArgs d ns nr R) (F : FwdFlat d R) (r : Region) (c : Cell d) (si : ℤ) (k : Fin d) :
    Option (R × R × R) :=
  let at_ := fun (u : Buf R) (j : ℤ) => u.rd (si + j * stride A.n k)
  if r = .mid then do
    let d2 ← cDiff2O A.acc (A.rdx2 k) (at_ F.wfc)
    -- nothing is read or written here in psi and zeta; the values returned are not used
    return (d2, 0, 0)
  else do
    let d1 ← cDiff1O A.acc (A.rdx k) (at_ F.wfc)
    let d2 ← cDiff2O A.acc (A.rdx2 k) (at_ F.wfc)
    let b ← (F.b k).rd (c k)
    let db ← (F.db k).rd (c k)
    let a ← (F.a k).rd (c k)
    let apsi ← cDiff1O A.acc (A.rdx k) fun j => do
      let a ← (F.a k).rd (c k + j)
      let p ← at_ (F.psi k) j
      return a * p
    let z ← (F.zeta k).rd si
    let p ← (F.psi k).rd si
    let _ ← (F.psin k).rd si
    let tmp := (1 + b) * d2 + db * d1 + apsi
    return ((1 + b) * tmp + a * z, b * d1 + a * p, b * tmp + a * z)

/-- The snapshot statement (`scalar.c` 392-394). -/
def storeO (A : CArgs d ns nr R) (save : Bool) (store : Buf R) (i : ℤ) (v wSum : R) : Option R :=
  if save then (store.rd i).map fun _ => 2 * v * A.dt2 * wSum else some 0

/-- Body of the forward kernel (`scalar.c` 349-396) at flat index `i`; the result is what is stored in
`wfp_t[i]`, and, if `save`, in `w_store_1_t[i]`, and for each dimension that is not in the middle
region in `psi*n_t[i]` and `zeta*_t[i]`. -/
def fwdFlat (A : CArgs d ns nr R) (save : Bool) (vOff shotOff storeOff : ℤ) (F : FwdFlat d R)
    (r : Fin d → Region) (c : Cell d) : Option (R × R × (Fin d → R × R)) := do
  let i := rowMajor A.n c
  let t ← allO fun k => fwdDimO A F (r k) c (shotOff + i) k
  let v ← F.v.rd (vOff + i)
  let w ← F.wfc.rd (shotOff + i)
  let p ← F.wfp.rd (shotOff + i)
  let wSum := ∑ k, (t k).1
  let s ← storeO A save F.store (storeOff + i) v wSum
  return (v * v * A.dt2 * wSum + 2 * w - p, s, fun k => (t k).2)

/-- What the buffers hold: `S` shots of fields of shape `n` (`scalar.py` 745-793), `M` models. -/
structure FwdFlat.Holds (A : CArgs d ns nr R) (S M : ℕ) (v wfc wfp : ℕ → Fld d R)
    (psi psin zeta : Fin d → ℕ → Fld d R) (F : FwdFlat d R) : Prop where
  v : Dw.Holds M A.n v F.v
  wfc : Dw.Holds S A.n wfc F.wfc
  wfp : Dw.Holds S A.n wfp F.wfp
  psi : ∀ k, Dw.Holds S A.n (psi k) (F.psi k)
  psin : ∀ k, Dw.Holds S A.n (psin k) (F.psin k)
  zeta : ∀ k, Dw.Holds S A.n (zeta k) (F.zeta k)
  a : ∀ k, HoldsProfile (A.n k) (A.a k) (F.a k)
  b : ∀ k, HoldsProfile (A.n k) (A.b k) (F.b k)
  db : ∀ k, HoldsProfile (A.n k) (A.db k) (F.db k)

theorem inShape_shift {n : Fin d → ℤ} {p : ℕ} {c : Cell d}
    (hc : ∀ k, (p : ℤ) ≤ c k ∧ c k < n k - p) (k : Fin d) {j : ℤ} (h0 : -(p : ℤ) ≤ j) (h1 : j ≤ p) :
    InShape n (c.shift k j) := by
  intro i
  have := hc i
  by_cases h : i = k
  · subst h
    rw [Cell.shift_same]
    omega
  · rw [Cell.shift_ne _ _ _ _ h]
    omega

omit [Field R] in
theorem holds_rd_shift {A : CArgs d ns nr R} {m s : ℕ} {u : ℕ → Fld d R} {b : Buf R}
    (h : Dw.Holds m A.n u b) (hs : s < m) {c : Cell d}
    (hc : ∀ k, (A.acc.pad : ℤ) ≤ c k ∧ c k < A.n k - A.acc.pad) (k : Fin d) {j : ℤ}
    (h0 : -(A.acc.pad : ℤ) ≤ j) (h1 : j ≤ A.acc.pad) :
    b.rd (s * (∏ k, A.n k) + rowMajor A.n c + j * stride A.n k) = some (u s (c.shift k j)) := by
  rw [add_assoc, ← rowMajor_shift]
  exact h.rd hs (inShape_shift hc k h0 h1)

/-- On an inner cell, no access is out of bounds and the values are those of `fwdBody`. -/
theorem fwdFlat_eq {A : CArgs d ns nr R} {S M : ℕ} {v wfc wfp : ℕ → Fld d R}
    {psi psin zeta : Fin d → ℕ → Fld d R} {F : FwdFlat d R}
    (hF : F.Holds A S M v wfc wfp psi psin zeta) {save : Bool} {s m : ℕ} (hs : s < S) (hm : m < M)
    (hv : v m = A.m) {c : Cell d} (hc : ∀ k, (A.acc.pad : ℤ) ≤ c k ∧ c k < A.n k - A.acc.pad)
    {storeOff : ℤ} (hst : save = true → 0 ≤ storeOff ∧ storeOff + ∏ k, A.n k ≤ F.store.len)
    (r : Fin d → Region) (old : R) :
    ∃ o, fwdFlat A save (m * ∏ k, A.n k) (s * ∏ k, A.n k) storeOff F r c = some o ∧
      let f := fwdBody A save (wfc s) (fun k => psi k s) r c
        ⟨wfp s c, fun k => psin k s c, fun k => zeta k s c, old⟩
      o.1 = f.wfp ∧ (save = true → o.2.1 = f.store) ∧
      ∀ k, r k ≠ .mid → o.2.2 k = (f.psin k, f.zeta k) := by
  have hin : InShape A.n c := fun k => by have := hc k; omega
  have hprof : ∀ k (b : Buf R) (p : ℤ → R), HoldsProfile (A.n k) p b → ∀ j : ℤ,
      -(A.acc.pad : ℤ) ≤ j → j ≤ A.acc.pad → b.rd (c k + j) = some (p (c k + j)) := by
    intro k b p h j h0 h1
    have := hc k
    exact h.rd (by omega) (by omega)
  have hprof0 : ∀ k (b : Buf R) (p : ℤ → R), HoldsProfile (A.n k) p b → b.rd (c k) = some (p (c k)) :=
    fun k b p h => h.rd (hin k).1 (hin k).2
  let d1 : Fin d → R := fun k => cDiff1 A.acc (A.rdx k) fun j => wfc s (c.shift k j)
  let d2 : Fin d → R := fun k => cDiff2 A.acc (A.rdx2 k) fun j => wfc s (c.shift k j)
  let tmp : Fin d → R := fun k => (1 + A.b k (c k)) * d2 k + A.db k (c k) * d1 k +
         cDiff1 A.acc (A.rdx k) fun j => A.a k (c k + j) * psi k s (c.shift k j)
  let res : Fin d → R × R × R := fun k => if r k = .mid then (d2 k, 0, 0)
       else ((1 + A.b k (c k)) * tmp k + A.a k (c k) * zeta k s c,
         A.b k (c k) * d1 k + A.a k (c k) * psi k s c,
         A.b k (c k) * tmp k + A.a k (c k) * zeta k s c)
  have hdim : ∀ k, fwdDimO A F (r k) c (s * (∏ k, A.n k) + rowMajor A.n c) k = some (res k) := by
    intro k
    unfold fwdDimO
    simp only
    rw [cDiff1O_of fun j h0 h1 => holds_rd_shift hF.wfc hs hc k h0 h1,
      cDiff2O_of fun j h0 h1 => holds_rd_shift hF.wfc hs hc k h0 h1,
      hprof0 k _ _ (hF.b k), hprof0 k _ _ (hF.db k), hprof0 k _ _ (hF.a k), (hF.zeta k).rd hs hin,
      (hF.psi k).rd hs hin, (hF.psin k).rd hs hin]
    rw [cDiff1O_of (b := fun j => A.a k (c k + j) * psi k s (c.shift k j)) fun j h0 h1 => by
      rw [hprof k _ _ (hF.a k) j h0 h1, holds_rd_shift (hF.psi k) hs hc k h0 h1]; rfl]
    simp only [res, d1, d2, tmp]
    split_ifs <;> rfl
  have hstore : ∀ vv w : R, storeO A save F.store (storeOff + rowMajor A.n c) vv w =
      some (if save then 2 * vv * A.dt2 * w else 0) := by
    intro vv w
    unfold storeO
    by_cases hsv : save = true
    · obtain ⟨h1, h2⟩ := hst hsv
      have hb := Setup.rowMajor_bound hin
      rw [if_pos hsv, if_pos hsv]
      unfold Buf.rd
      rw [if_pos ⟨by omega, by omega⟩]
      rfl
    · rw [if_neg hsv, if_neg hsv]
  refine ⟨(v m c * v m c * A.dt2 * (∑ k, (res k).1) + 2 * wfc s c - wfp s c,
    if save then 2 * v m c * A.dt2 * (∑ k, (res k).1) else 0, fun k => (res k).2), ?_, ?_⟩
  · unfold fwdFlat
    simp only
    rw [allO_of hdim, hF.v.rd hm hin, hF.wfc.rd hs hin, hF.wfp.rd hs hin]
    simp only [Option.bind_eq_bind, Option.bind_some, Option.pure_def]
    rw [hstore]
    rfl
  · have hsum : ∑ k, (res k).1 = ∑ k, if r k = .mid then d2 k
        else (1 + A.b k (c k)) * tmp k + A.a k (c k) * zeta k s c :=
      Finset.sum_congr rfl fun k _ => by simp only [res]; split_ifs <;> rfl
    refine ⟨?_, fun hsv => ?_, fun k hk => ?_⟩
    · simp only [fwdBody]
      rw [hsum, hv]
    · simp only [fwdBody]
      rw [if_pos hsv, if_pos hsv, hsum, hv]
    · simp only [fwdBody, res]
      rw [if_neg hk, if_neg hk, if_neg hk]

/-! ### Backward -/

/-- Buffers of the backward kernel. -/
structure BwdFlat (d : ℕ) (R : Type*) where
  m : Buf R
  wfc : Buf R
  wfp : Buf R
  psi : Fin d → Buf R
  psin : Fin d → Buf R
  zeta : Fin d → Buf R
  zetan : Fin d → Buf R
  store : Buf R
  grad : Buf R
  a : Fin d → Buf R
  b : Fin d → Buf R
  db : Fin d → Buf R

/-- The statements for one dimension (`scalar.c` 655-683) with the macros of 92-144. -/
def bwdDimO (A : CArgs d ns nr R) (F : BwdFlat d R) (r : Region) (c : Cell d) (i vOff shotOff : ℤ)
    (k : Fin d) : Option (R × R × R) :=
  let v2dt2wfc := fun (j : ℤ) => do
    let m ← F.m.rd (vOff + (i + j * stride A.n k))
    let w ← F.wfc.rd (shotOff + (i + j * stride A.n k))
    return m * w
  let zeta := fun (j : ℤ) => (F.zeta k).rd (shotOff + (i + j * stride A.n k))
  let psi := fun (j : ℤ) => (F.psi k).rd (shotOff + (i + j * stride A.n k))
  let psiTerm := fun (j : ℤ) => do
    let b ← (F.b k).rd (c k + j)
    let m ← v2dt2wfc j
    let z ← zeta j
    return (1 + b) * m + b * z
  let utTerm1 := fun (j : ℤ) => do
    let db ← (F.db k).rd (c k + j)
    let b ← (F.b k).rd (c k + j)
    let m ← v2dt2wfc j
    let z ← zeta j
    let p ← psi j
    return db * ((1 + b) * m + b * z) + b * p
  let utTerm2 := fun (j : ℤ) => do
    let b ← (F.b k).rd (c k + j)
    let m ← v2dt2wfc j
    let z ← zeta j
    return (1 + b) * ((1 + b) * m + b * z)
  if r = .mid then do
    let d2 ← cDiff2O A.acc (A.rdx2 k) v2dt2wfc
    return (d2, 0, 0)
  else do
    let t1 ← cDiff1O A.acc (A.rdx k) utTerm1
    let t2 ← cDiff2O A.acc (A.rdx2 k) utTerm2
    let tp ← cDiff1O A.acc (A.rdx k) psiTerm
    let a ← (F.a k).rd (c k)
    let p ← psi 0
    let m ← v2dt2wfc 0
    let z ← zeta 0
    let _ ← (F.psin k).rd (shotOff + i)
    let _ ← (F.zetan k).rd (shotOff + i)
    return (-t1 + t2, -a * tp + a * p, a * m + a * z)

/-- The gradient statement (`scalar.c` 688-691). -/
def gradO (A : CArgs d ns nr R) (load : Bool) (grad store : Buf R) (gi si : ℤ) (w : R) : Option R :=
  if load then (grad.rd gi).bind fun g => (store.rd si).map fun s => g + w * s * (A.ratio : R)
  else some 0

/-- Body of the backward kernel (`scalar.c` 649-692). -/
def bwdFlat (A : CArgs d ns nr R) (load : Bool) (vOff gOff shotOff storeOff : ℤ) (F : BwdFlat d R)
    (r : Fin d → Region) (c : Cell d) : Option (R × R × (Fin d → R × R)) := do
  let i := rowMajor A.n c
  let t ← allO fun k => bwdDimO A F (r k) c i vOff shotOff k
  let w ← F.wfc.rd (shotOff + i)
  let p ← F.wfp.rd (shotOff + i)
  let g ← gradO A load F.grad F.store (gOff + i) (storeOff + i) w
  return ((∑ k, (t k).1) + 2 * w - p, g, fun k => (t k).2)

structure BwdFlat.Holds (A : CArgs d ns nr R) (S M G K : ℕ) (m wfc wfp : ℕ → Fld d R)
    (psi psin zeta zetan : Fin d → ℕ → Fld d R) (store grad : ℕ → Fld d R) (F : BwdFlat d R) : Prop where
  m : Dw.Holds M A.n m F.m
  wfc : Dw.Holds S A.n wfc F.wfc
  wfp : Dw.Holds S A.n wfp F.wfp
  psi : ∀ k, Dw.Holds S A.n (psi k) (F.psi k)
  psin : ∀ k, Dw.Holds S A.n (psin k) (F.psin k)
  zeta : ∀ k, Dw.Holds S A.n (zeta k) (F.zeta k)
  zetan : ∀ k, Dw.Holds S A.n (zetan k) (F.zetan k)
  store : Dw.Holds K A.n store F.store
  grad : Dw.Holds G A.n grad F.grad
  a : ∀ k, HoldsProfile (A.n k) (A.a k) (F.a k)
  b : ∀ k, HoldsProfile (A.n k) (A.b k) (F.b k)
  db : ∀ k, HoldsProfile (A.n k) (A.db k) (F.db k)

/-- On an inner cell, no access is out of bounds and the values are those of `bwdBody`. -/
theorem bwdFlat_eq {A : CArgs d ns nr R} {S M G K : ℕ} {m wfc wfp : ℕ → Fld d R}
    {psi psin zeta zetan : Fin d → ℕ → Fld d R} {store grad : ℕ → Fld d R} {F : BwdFlat d R}
    (hF : F.Holds A S M G K m wfc wfp psi psin zeta zetan store grad) {load : Bool} {s mi g q : ℕ}
    (hs : s < S) (hmi : mi < M) (hg : load = true → g < G ∧ q < K) (hm : m mi = A.m) {c : Cell d}
    (hc : ∀ k, (A.acc.pad : ℤ) ≤ c k ∧ c k < A.n k - A.acc.pad) (r : Fin d → Region) :
    ∃ o, bwdFlat A load (mi * ∏ k, A.n k) (g * ∏ k, A.n k) (s * ∏ k, A.n k) (q * ∏ k, A.n k) F r c =
        some o ∧
      let f := bwdBody A load (store q) (wfc s) (fun k => psi k s) (fun k => zeta k s) r c
        ⟨wfp s c, fun k => psin k s c, fun k => zetan k s c, grad g c⟩
      o.1 = f.wfp ∧ (load = true → o.2.1 = f.grad) ∧
      ∀ k, r k ≠ .mid → o.2.2 k = (f.psin k, f.zetan k) := by
  have hin : InShape A.n c := fun k => by have := hc k; omega
  have hpad : (0 : ℤ) ≤ A.acc.pad := by omega
  have hprof : ∀ k (b : Buf R) (p : ℤ → R), HoldsProfile (A.n k) p b → ∀ j : ℤ,
      -(A.acc.pad : ℤ) ≤ j → j ≤ A.acc.pad → b.rd (c k + j) = some (p (c k + j)) := by
    intro k b p h j h0 h1
    have := hc k
    exact h.rd (by omega) (by omega)
  have hrd : ∀ {N t : ℕ} {u : ℕ → Fld d R} {b : Buf R}, Dw.Holds N A.n u b → t < N → ∀ k (j : ℤ),
      -(A.acc.pad : ℤ) ≤ j → j ≤ A.acc.pad →
      b.rd (t * (∏ k, A.n k) + (rowMajor A.n c + j * stride A.n k)) = some (u t (c.shift k j)) := by
    intro N t u b h ht k j h0 h1
    rw [← add_assoc]
    exact holds_rd_shift h ht hc k h0 h1
  let vw : Fin d → ℤ → R := fun k j => A.m (c.shift k j) * wfc s (c.shift k j)
  let pt : Fin d → ℤ → R := fun k j => (1 + A.b k (c k + j)) * vw k j + A.b k (c k + j) * zeta k s (c.shift k j)
  let u1 : Fin d → ℤ → R := fun k j => A.db k (c k + j) * ((1 + A.b k (c k + j)) * vw k j
      + A.b k (c k + j) * zeta k s (c.shift k j)) + A.b k (c k + j) * psi k s (c.shift k j)
  let u2 : Fin d → ℤ → R := fun k j => (1 + A.b k (c k + j)) * ((1 + A.b k (c k + j)) * vw k j
      + A.b k (c k + j) * zeta k s (c.shift k j))
  let res : Fin d → R × R × R := fun k => if r k = .mid then (cDiff2 A.acc (A.rdx2 k) (vw k), 0, 0)
       else (-cDiff1 A.acc (A.rdx k) (u1 k) + cDiff2 A.acc (A.rdx2 k) (u2 k),
         -A.a k (c k) * cDiff1 A.acc (A.rdx k) (pt k) + A.a k (c k) * psi k s c,
         A.a k (c k) * (A.m c * wfc s c) + A.a k (c k) * zeta k s c)
  have hdim : ∀ k, bwdDimO A F (r k) c (rowMajor A.n c) (mi * ∏ k, A.n k) (s * ∏ k, A.n k) k =
      some (res k) := by
    intro k
    have hvw : ∀ j : ℤ, -(A.acc.pad : ℤ) ≤ j → j ≤ A.acc.pad → (do
        let m ← F.m.rd (mi * (∏ k, A.n k) + (rowMajor A.n c + j * stride A.n k))
        let w ← F.wfc.rd (s * (∏ k, A.n k) + (rowMajor A.n c + j * stride A.n k))
        return m * w) = some (vw k j) := by
      intro j h0 h1
      rw [hrd hF.m hmi k j h0 h1, hrd hF.wfc hs k j h0 h1, hm]
      rfl
    unfold bwdDimO
    simp only
    rw [cDiff2O_of hvw]
    rw [cDiff1O_of (b := u1 k) fun j h0 h1 => by
      rw [hprof k _ _ (hF.db k) j h0 h1, hprof k _ _ (hF.b k) j h0 h1, hvw j h0 h1,
        hrd (hF.zeta k) hs k j h0 h1, hrd (hF.psi k) hs k j h0 h1]; rfl]
    rw [cDiff2O_of (b := u2 k) fun j h0 h1 => by
      rw [hprof k _ _ (hF.b k) j h0 h1, hvw j h0 h1, hrd (hF.zeta k) hs k j h0 h1]; rfl]
    rw [cDiff1O_of (b := pt k) fun j h0 h1 => by
      rw [hprof k _ _ (hF.b k) j h0 h1, hvw j h0 h1, hrd (hF.zeta k) hs k j h0 h1]; rfl]
    rw [hvw 0 (by omega) hpad, hrd (hF.zeta k) hs k 0 (by omega) hpad,
      hrd (hF.psi k) hs k 0 (by omega) hpad, (hF.a k).rd (hin k).1 (hin k).2,
      (hF.psin k).rd hs hin, (hF.zetan k).rd hs hin]
    simp only [res, vw, Cell.shift_zero]
    split_ifs <;> rfl
  have hgr : ∀ w : R, gradO A load F.grad F.store (g * (∏ k, A.n k) + rowMajor A.n c)
      (q * (∏ k, A.n k) + rowMajor A.n c) w =
      some (if load then grad g c + w * store q c * (A.ratio : R) else 0) := by
    intro w
    unfold gradO
    by_cases hl : load = true
    · rw [if_pos hl, if_pos hl, hF.grad.rd (hg hl).1 hin, hF.store.rd (hg hl).2 hin]
      rfl
    · rw [if_neg hl, if_neg hl]
  refine ⟨((∑ k, (res k).1) + 2 * wfc s c - wfp s c,
    if load then grad g c + wfc s c * store q c * (A.ratio : R) else 0, fun k => (res k).2), ?_, ?_⟩
  · unfold bwdFlat
    simp only
    rw [allO_of hdim, hF.wfc.rd hs hin, hF.wfp.rd hs hin]
    simp only [Option.bind_eq_bind, Option.bind_some, Option.pure_def]
    rw [hgr]
    rfl
  · have hsum : ∑ k, (res k).1 = ∑ k, if r k = .mid then cDiff2 A.acc (A.rdx2 k) (vw k)
        else -cDiff1 A.acc (A.rdx k) (u1 k) + cDiff2 A.acc (A.rdx2 k) (u2 k) :=
      Finset.sum_congr rfl fun k _ => by simp only [res]; split_ifs <;> rfl
    refine ⟨?_, fun hl => ?_, fun k hk => ?_⟩
    · simp only [bwdBody]
      rw [hsum]
    · simp only [bwdBody]
      rw [if_pos hl, if_pos hl]
    · simp only [bwdBody, res]
      rw [if_neg hk, if_neg hk, if_neg hk]

end Dw.Scalar
