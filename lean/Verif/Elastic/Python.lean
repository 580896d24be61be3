import Verif.Core.PyLoop
import Verif.Elastic.Adjoint
import Verif.Acoustic.Python

/-!
# Model of the pure Python elastic propagator

Models `update_velocities`, `update_stresses` and `elastic_python` (`elastic.py` 1952-2690), for one
shot.  Tensors are functions on cells; positions outside the array hold zero.  `IGNORE_LOCATION` is
`none`.  `shear_stresses[i][j]` is one array for `i < j` and `j < i` (both entries are set to the same
tensor, `elastic.py` 2127-2132).  Options that the Python backend rejects (backward callback, storage
options) and vmap are not modelled.  The names under which a callback finds the wavefields are in
`Verif/Interface/PyNames.lean`.
-/

namespace Dw.Elastic

open Dw.Scalar (inject sample pyScatter pyGather pyScatter_eq)
open Dw.Acoustic (update_shift pad_pos inject_out)

variable {d np mp : ℕ} {nv mv : Fin d → ℕ} {R : Type*} [Field R]

/-- Cells of the padded array. -/
def Cfg.InArr (C : Cfg d np mp nv mv R) (c : Cell d) : Prop := ∀ k, 0 ≤ c k ∧ c k < C.n k

instance (C : Cfg d np mp nv mv R) (c : Cell d) : Decidable (C.InArr c) :=
  inferInstanceAs (Decidable (∀ _, _))

/-- `staggered_grid.diff1(a, dim, ...)` (`staggered_grid.py` 312-321). -/
def Cfg.pyD (C : Cfg d np mp nv mv R) (k : Fin d) (u : Fld d R) : Fld d R := fun c =>
  pyS1 C.acc (C.n k) (1 / C.dx k) (fun x => u (Function.update c k x)) (c k)

/-- `staggered_grid.diff1h(a, dim, ...)` (`staggered_grid.py` 323-332). -/
def Cfg.pyDH (C : Cfg d np mp nv mv R) (k : Fin d) (u : Fld d R) : Fld d R := fun c =>
  pySH1 C.acc (C.n k) (1 / C.dx k) (fun x => u (Function.update c k x)) (c k)

/-- `for dim1 in range(ndim - 1): for dim2 in range(dim1 + 1, ndim)`. -/
def pyPairs (d : ℕ) : List (Sh d) :=
  (List.finRange d).flatMap fun i => (List.finRange d).filterMap fun j =>
    if h : i < j then some ⟨(i, j), h⟩ else none

/-- An element-wise operation on arrays of the padded shape. -/
def Cfg.onArr (C : Cfg d np mp nv mv R) (f : Cell d → R) : Fld d R := fun c => if C.InArr c then f c else 0

/-- `update_velocities` (`elastic.py` 1952-2034). -/
def Cfg.pyVel (C : Cfg d np mp nv mv R) (w : Wavefields d R) : Wavefields d R :=
  let dn := fun i => C.pyDH i (w.s i)
  let mn := fun i => C.onArr fun c => C.ah i (c i) * w.ms i i c + C.bh i (c i) * dn i c
  -- `d_shear_d_dim2`, `d_shear_d_dim1` and their memory variables
  let d2 := fun p : Sh d => C.pyD p.1.2 (w.sh p)
  let m2 := fun p : Sh d => C.onArr fun c =>
    C.a p.1.2 (c p.1.2) * w.ms p.1.1 p.1.2 c + C.b p.1.2 (c p.1.2) * d2 p c
  let d1 := fun p : Sh d => C.pyD p.1.1 (w.sh p)
  let m1 := fun p : Sh d => C.onArr fun c =>
    C.a p.1.1 (c p.1.1) * w.ms p.1.2 p.1.1 c + C.b p.1.1 (c p.1.1) * d1 p c
  let sum := fun c => (pyPairs d).foldl (fun (x : Fin d → R) p =>
    let x := Function.update x p.1.1 (x p.1.1 + (d2 p c + m2 p c))
    Function.update x p.1.2 (x p.1.2 + (d1 p c + m1 p c))) fun i => dn i c + mn i c
  { w with
    ms := pick mn m2 m1
    v := fun i => C.onArr fun c => w.v i c + C.B i c * C.dt * sum c i }

/-- `update_stresses` (`elastic.py` 2037-2139). -/
def Cfg.pyStr (C : Cfg d np mp nv mv R) (w : Wavefields d R) : Wavefields d R :=
  let dn := fun i => C.pyD i (w.v i)
  let ds := fun i j => C.pyDH j (w.v i)
  let mn := fun i => C.onArr fun c => C.a i (c i) * w.mv i i c + C.b i (c i) * dn i c
  let ms := fun i j => C.onArr fun c => C.ah j (c j) * w.mv i j c + C.bh j (c j) * ds i j c
  let en := fun i c => dn i c + mn i c
  let es := fun i j c => ds i j c + ms i j c
  let sum := fun c => (List.finRange d).foldl (fun x i => x + en i c) 0
  { w with
    mv := pick mn (fun p => ms p.1.1 p.1.2) (fun p => ms p.1.2 p.1.1)
    s := fun i => C.onArr fun c => w.s i c + C.dt * (C.lam c * sum c + 2 * C.mu c * en i c)
    sh := fun p => C.onArr fun c =>
      w.sh p c + C.dt * C.muS p c * (es p.1.1 p.1.2 c + es p.1.2 p.1.1 c) }

structure PyMem (d mp : ℕ) (mv : Fin d → ℕ) (R : Type*) where
  wf : Wavefields d R
  rcdP : ℕ → Fin mp → R
  rcdV : (k : Fin d) → ℕ → Fin (mv k) → R

/-- Body of the inner loop (`elastic.py` 2519-2610). -/
def Cfg.pyInner (C : Cfg d np mp nv mv R) (fp : ℕ → Fin np → R)
    (fv : (k : Fin d) → ℕ → Fin (nv k) → R) (t : ℕ) (m : PyMem d mp mv R) : PyMem d mp mv R :=
  let s₁ := C.pyVel m.wf
  let s₂ := { s₁ with v := fun k => pyScatter (s₁.v k) (C.srcV k) (fv k t) }
  let s₃ := C.pyStr s₂
  { wf := { s₃ with s := fun i => pyScatter (s₃.s i) C.srcP (fp t) }
    rcdP := Function.update m.rcdP t fun r =>
      (List.finRange d).foldl (fun x i => x + pyGather (m.wf.s i) C.rcvP r) 0
    rcdV := fun k => Function.update (m.rcdV k) t (pyGather (m.wf.v k) (C.rcvV k)) }

/-- Wavefields after padding and `zero_edges_and_interiors` with `interiors` false (`elastic.py`
2191-2204): the memory variables are not set to zero in the interior. -/
def Cfg.pyPrepare (C : Cfg d np mp nv mv R) (w : Init d R) : Wavefields d R where
  v := fun i => C.zeroEdges (vLoc i) (C.createOrPad (w.v i))
  s := fun i => C.createOrPad (w.s i)
  sh := fun p => C.zeroEdges (sLoc p.1.1 p.1.2) (C.createOrPad (w.sh p))
  mv := fun i j => C.zeroEdges (sLoc i j) (C.createOrPad (w.mv i j))
  ms := fun i j => C.zeroEdges (vLoc i) (C.createOrPad (w.ms i j))

structure PyResult (d mp : ℕ) (mv : Fin d → ℕ) (R : Type*) where
  out : Wavefields d R
  rcdP : ℕ → Fin mp → R
  rcdV : (k : Fin d) → ℕ → Fin (mv k) → R
  events : List (Event d R)

/-- `elastic_python` (`elastic.py` 2142-2690).  The receiver data are returned unmasked: an ignored
receiver holds what is at flat index 0 (`receiver_amplitudes_masked` is computed in 2612-2618 but
`receiver_amplitudes` is returned in 2688). -/
def Cfg.pyForward (C : Cfg d np mp nv mv R) (cb : Option ℕ) (nt : ℕ) (fp : ℕ → Fin np → R)
    (fv : (k : Fin d) → ℕ → Fin (nv k) → R) (w : Init d R) : Except PyErr (PyResult d mp mv R) :=
  if C.ratio = 0 then .error .zeroDivision else
  let m := Driver.pyDrive (C.pyInner fp fv) C.ratio (fun step m => (⟨step, m.wf⟩ : Event d R)) cb
    (nt / C.ratio) ⟨C.pyPrepare w, fun _ _ => 0, fun _ _ _ => 0⟩
  .ok { out := C.unpadAll m.1.wf
        rcdP := m.1.rcdP
        rcdV := m.1.rcdV
        events := m.2 }

/-! ### Relation to the reference recursion -/

variable {C : Cfg d np mp nv mv R}

/-- Shape of the wavefields between steps of the Python backend: nothing outside the updated points. -/
structure Cfg.Supp (C : Cfg d np mp nv mv R) (w : Wavefields d R) : Prop where
  v : ∀ i c, ¬C.InnerAt (vLoc i) c → w.v i c = 0
  s : ∀ i c, ¬C.Inner c → w.s i c = 0
  sh : ∀ p c, ¬C.InnerAt (sLoc p.1.1 p.1.2) c → w.sh p c = 0
  mv : ∀ i j c, ¬C.InnerAt (sLoc i j) c → w.mv i j c = 0
  ms : ∀ i j c, ¬C.InnerAt (vLoc i) c → w.ms i j c = 0

theorem pyPrepare_supp (w : Init d R) : C.Supp (C.pyPrepare w) where
  v := fun _ _ hc => zeroEdges_out hc
  s := fun _ _ hc => createOrPad_out hc
  sh := fun _ _ hc => zeroEdges_out hc
  mv := fun _ _ _ hc => zeroEdges_out hc
  ms := fun _ _ _ hc => zeroEdges_out hc

theorem halfV_supp (h : C.WF) (q : (k : Fin d) → Fin (nv k) → R) {w : Wavefields d R}
    (g : C.Supp w) : C.Supp (C.halfV q w) where
  v := fun i c hc => by
    simp [Cfg.halfV, g.v i c hc, divS_out hc, inject_out (h.srcV_in i) _ c hc]
  s := g.s
  sh := g.sh
  mv := g.mv
  ms := fun i j c hc => mem'_out hc

theorem halfS_supp (h : C.WF) (q : Fin np → R) {w : Wavefields d R} (g : C.Supp w) :
    C.Supp (C.halfS q w) where
  v := g.v
  s := fun i c hc => by
    simp [Cfg.halfS, g.s i c hc, gradV_diag_out hc, inject_out h.srcP_in _ c hc]
  sh := fun p c hc => by
    have h1 : C.gradV w p.1.1 p.1.2 c = 0 := str_out hc
    have h2 : C.gradV w p.1.2 p.1.1 c = 0 := str_out (by rwa [sLoc_comm])
    simp [Cfg.halfS, g.sh p c hc, h1, h2]
  mv := fun i j c hc => mem'_out hc
  ms := g.ms

theorem run_supp (h : C.WF) (fp : ℕ → Fin np → R) (fv : (k : Fin d) → ℕ → Fin (nv k) → R)
    {w : Wavefields d R} (g : C.Supp w) : ∀ n, C.Supp (C.run fp fv w n)
  | 0 => g
  | n + 1 => halfS_supp h _ (halfV_supp h _ (run_supp h fp fv g n))

/-- The difference the Python code takes for a derivative at half or integer points. -/
def Cfg.pyDiff (C : Cfg d np mp nv mv R) (h : Bool) (k : Fin d) (u : Fld d R) : Fld d R :=
  if h then C.pyDH k u else C.pyD k u

theorem pyDiff_eq (h : Bool) (k : Fin d) (u : Fld d R) (c : Cell d) :
    C.pyDiff h k u c = if (C.acc.pad : ℤ) ≤ c k ∧
      c k < C.n k - C.acc.pad + (if h then 0 else 1) then C.D h k u c else 0 := by
  have e : C.n k - ((C.acc.pad : ℤ) - 1) = C.n k - C.acc.pad + 1 := by ring
  cases h
  · simp only [Cfg.pyDiff, Bool.false_eq_true, if_false, Cfg.pyD, pyS1_eq, update_shift, e]
    rfl
  · simp only [Cfg.pyDiff, if_true, Cfg.pyDH, pySH1_eq, update_shift, add_zero]
    rfl

omit [Field R] in
theorem inner_inArr {c : Cell d} (hc : C.Inner c) : C.InArr c := fun k => by
  have := hc k
  have hp := pad_pos C.acc
  omega

theorem pyDiff_in {L : Loc d} {k : Fin d} {u : Fld d R} {c : Cell d} (hc : C.InnerAt L c) :
    C.pyDiff (L k) k u c = C.D (L k) k u c := by
  rw [pyDiff_eq, if_pos]
  refine ⟨(hc.1 k).1, ?_⟩
  cases e : L k
  · simpa using (hc.1 k).2
  · simpa using hc.2 k e

/-- A difference at points of `L` of a quantity that lies at `L'`, which agrees with `L` in the other
dimensions. -/
theorem pyDiff_out {L L' : Loc d} {k : Fin d} {u : Fld d R} (hu : ∀ c, ¬C.InnerAt L' c → u c = 0)
    (hL : ∀ i, i ≠ k → L' i = L i) {c : Cell d} (hc : ¬C.InnerAt L c) :
    C.pyDiff (L k) k u c = 0 := by
  rw [pyDiff_eq]
  by_cases hk : (C.acc.pad : ℤ) ≤ c k ∧ c k < C.n k - C.acc.pad + (if L k then 0 else 1)
  · rw [if_pos hk]
    have hz : (fun x => u (c.shift k x)) = fun _ => 0 := by
      funext j
      refine hu _ fun hi => hc ⟨fun i => ?_, fun i hi' => ?_⟩
      · by_cases hik : i = k
        · subst hik
          refine ⟨hk.1, ?_⟩
          have := hk.2
          split_ifs at this <;> omega
        · have := hi.1 i
          rwa [Cell.shift_ne _ _ _ _ hik] at this
      · by_cases hik : i = k
        · subst hik
          simpa [hi'] using hk.2
        · have := hi.2 i (by rw [hL i hik, hi'])
          rwa [Cell.shift_ne _ _ _ _ hik] at this
    cases e : L k <;> simp [Cfg.D, cD, hz]
  · rw [if_neg hk]

/-- The memory variable of the Python code. -/
theorem pyMem_eq {L L' : Loc d} {k : Fin d} {hb : Bool} (e : L k = hb) {u m : Fld d R}
    (hu : ∀ c, ¬C.InnerAt L' c → u c = 0) (hL : ∀ i, i ≠ k → L' i = L i)
    (hm : ∀ c, ¬C.InnerAt L c → m c = 0) :
    (C.onArr fun c => C.pa hb k (c k) * m c + C.pb hb k (c k) * C.pyDiff hb k u c) =
      C.mem' L k u m := by
  subst e
  funext c
  simp only [Cfg.onArr, Cfg.mem']
  by_cases hc : C.InnerAt L c
  · rw [if_pos (inner_inArr hc.1), if_pos hc, pyDiff_in hc]
  · rw [if_neg hc, hm c hc, pyDiff_out hu hL hc]
    simp

/-- The stretched derivative of the Python code. -/
theorem pyDiff_add_mem {L L' : Loc d} {k : Fin d} {hb : Bool} (e : L k = hb) {u m : Fld d R}
    (hu : ∀ c, ¬C.InnerAt L' c → u c = 0) (hL : ∀ i, i ≠ k → L' i = L i) (c : Cell d) :
    C.pyDiff hb k u c + C.mem' L k u m c = C.str L k u m c := by
  subst e
  unfold Cfg.str
  by_cases hc : C.InnerAt L c
  · rw [if_pos hc, pyDiff_in hc]
  · rw [if_neg hc, mem'_out hc, pyDiff_out hu hL hc, add_zero]

theorem pyPairs_nodup (d : ℕ) : (pyPairs d).Nodup := by
  unfold pyPairs
  refine List.nodup_flatMap.2 ⟨fun i _ => ?_, ?_⟩
  · refine List.Nodup.filterMap ?_ (List.nodup_finRange d)
    intro a a' b h1 h2
    simp only [Option.mem_def] at h1 h2
    split_ifs at h1 h2
    simp only [Option.some.injEq] at h1 h2
    rw [← h2] at h1
    simp only [Subtype.mk.injEq, Prod.mk.injEq, true_and] at h1
    exact h1
  · refine (List.nodup_finRange d).imp ?_
    intro j j' hj
    simp only [Function.onFun, List.disjoint_left, List.mem_filterMap, not_exists, not_and]
    rintro x ⟨i, -, hi⟩ i' -
    split_ifs at hi with h1
    simp only [Option.some.injEq] at hi
    split_ifs with h2
    · simp only [Option.some.injEq, ← hi, Subtype.mk.injEq, Prod.mk.injEq, not_and]
      exact fun h _ => hj h.symm
    · simp

theorem mem_pyPairs (p : Sh d) : p ∈ pyPairs d := by
  unfold pyPairs
  simp only [List.mem_flatMap, List.mem_filterMap, List.mem_finRange, true_and]
  exact ⟨p.1.1, p.1.2, by simp [p.2]⟩

theorem sum_pyPairs (f : Sh d → R) : ((pyPairs d).map f).sum = ∑ p, f p := by
  rw [← List.sum_toFinset f (pyPairs_nodup d)]
  refine Finset.sum_congr ?_ fun _ _ => rfl
  ext p
  simp [mem_pyPairs p]

/-- The loop over pairs adds to every entry its contributions. -/
theorem fold_pairs (l : List (Sh d)) (f g : Sh d → R) (x : Fin d → R) (i : Fin d) :
    l.foldl (fun (x : Fin d → R) p =>
      let x := Function.update x p.1.1 (x p.1.1 + f p)
      Function.update x p.1.2 (x p.1.2 + g p)) x i =
    x i + (l.map fun p => (if p.1.1 = i then f p else 0) + if p.1.2 = i then g p else 0).sum := by
  induction l generalizing x with
  | nil => simp
  | cons p l ih =>
      rw [List.foldl_cons, ih, List.map_cons, List.sum_cons, ← add_assoc]
      congr 1
      have hne := p.2.ne
      by_cases h1 : i = p.1.1
      · subst h1
        simp [Function.update_of_ne hne, hne.symm]
      · by_cases h2 : i = p.1.2
        · subst h2
          simp [Function.update_of_ne hne.symm, hne]
        · simp [Function.update_of_ne h1, Function.update_of_ne h2, Ne.symm h1, Ne.symm h2]

/-- Row sums from the diagonal and the contributions of the pairs. -/
theorem row_sum (T : Fin d → Fin d → R) (i : Fin d) :
    T i i + ∑ p : Sh d, ((if p.1.1 = i then T p.1.1 p.1.2 else 0) +
      if p.1.2 = i then T p.1.2 p.1.1 else 0) = ∑ j, T i j := by
  have h := sum_pairs fun a b => if a = i then T a b else 0
  simp only [Finset.sum_ite_eq', Finset.mem_univ, if_true] at h
  rw [← h, Finset.sum_comm]
  simp

theorem vLoc_ne {i j k : Fin d} (h : k ≠ j) : sLoc i j k = vLoc i k := by
  have : (k == j) = false := by simp [h]
  simp [sLoc, vLoc, this]

theorem supp_sig {w : Wavefields d R} (g : C.Supp w) (i j : Fin d) (c : Cell d)
    (hc : ¬C.InnerAt (sLoc i j) c) : w.sig i j c = 0 := by
  unfold Wavefields.sig sigOf
  rcases lt_trichotomy i j with h | h | h
  · rw [pick_lt _ _ _ ⟨(i, j), h⟩]; exact g.sh _ _ hc
  · subst h; rw [pick_self]; exact g.s _ _ (mt innerAt_diag.2 hc)
  · rw [pick_gt _ _ _ ⟨(j, i), h⟩]; exact g.sh _ _ (by rwa [sLoc_comm])

theorem pyVel_eq {w : Wavefields d R} (hs : C.Supp w) (q : (k : Fin d) → Fin (nv k) → R) :
    { C.pyVel w with v := fun k => pyScatter ((C.pyVel w).v k) (C.srcV k) (q k) } = C.halfV q w := by
  have hL : ∀ i j k : Fin d, k ≠ j → sLoc i j k = vLoc i k := fun i j k h => vLoc_ne h
  have hn : ∀ i : Fin d, vLoc i i = true := fun i => by simp [vLoc]
  have hne : ∀ {i j : Fin d}, i ≠ j → vLoc i j = false := fun {i j} h => by simp [vLoc, h.symm]
  have sd : ∀ i, w.sig i i = w.s i := fun i => pick_self _ _ _ i
  have sl : ∀ p : Sh d, w.sig p.1.1 p.1.2 = w.sh p := fun p => pick_lt _ _ _ p
  have sr : ∀ p : Sh d, w.sig p.1.2 p.1.1 = w.sh p := fun p => pick_gt _ _ _ p
  have en : ∀ i, (C.onArr fun c => C.ah i (c i) * w.ms i i c + C.bh i (c i) * C.pyDH i (w.s i) c) =
      C.mem' (vLoc i) i (w.sig i i) (w.ms i i) := fun i => by
    rw [← pyMem_eq (hn i) (supp_sig hs i i) (hL i i) (hs.ms i i), sd]
    rfl
  have el : ∀ p : Sh d, (C.onArr fun c => C.a p.1.2 (c p.1.2) * w.ms p.1.1 p.1.2 c +
      C.b p.1.2 (c p.1.2) * C.pyD p.1.2 (w.sh p) c) =
      C.mem' (vLoc p.1.1) p.1.2 (w.sig p.1.1 p.1.2) (w.ms p.1.1 p.1.2) := fun p => by
    rw [← pyMem_eq (hne p.2.ne) (supp_sig hs _ _) (hL _ _) (hs.ms _ _), sl]
    rfl
  have er : ∀ p : Sh d, (C.onArr fun c => C.a p.1.1 (c p.1.1) * w.ms p.1.2 p.1.1 c +
      C.b p.1.1 (c p.1.1) * C.pyD p.1.1 (w.sh p) c) =
      C.mem' (vLoc p.1.2) p.1.1 (w.sig p.1.2 p.1.1) (w.ms p.1.2 p.1.1) := fun p => by
    rw [← pyMem_eq (hne p.2.ne') (supp_sig hs _ _) (hL _ _) (hs.ms _ _), sr]
    rfl
  have tn : ∀ i c, C.pyDH i (w.s i) c + C.mem' (vLoc i) i (w.sig i i) (w.ms i i) c =
      C.str (vLoc i) i (w.sig i i) (w.ms i i) c := fun i c => by
    rw [← pyDiff_add_mem (hn i) (supp_sig hs i i) (hL i i) c, sd]
    rfl
  have tl : ∀ (p : Sh d) c, C.pyD p.1.2 (w.sh p) c +
      C.mem' (vLoc p.1.1) p.1.2 (w.sig p.1.1 p.1.2) (w.ms p.1.1 p.1.2) c =
      C.str (vLoc p.1.1) p.1.2 (w.sig p.1.1 p.1.2) (w.ms p.1.1 p.1.2) c := fun p c => by
    rw [← pyDiff_add_mem (hne p.2.ne) (supp_sig hs _ _) (hL _ _) c, sl]
    rfl
  have tr : ∀ (p : Sh d) c, C.pyD p.1.1 (w.sh p) c +
      C.mem' (vLoc p.1.2) p.1.1 (w.sig p.1.2 p.1.1) (w.ms p.1.2 p.1.1) c =
      C.str (vLoc p.1.2) p.1.1 (w.sig p.1.2 p.1.1) (w.ms p.1.2 p.1.1) c := fun p c => by
    rw [← pyDiff_add_mem (hne p.2.ne') (supp_sig hs _ _) (hL _ _) c, sr]
    rfl
  ext1
  · funext k c
    simp only [pyScatter_eq, Cfg.halfV]
    congr 1
    simp only [Cfg.pyVel, en, el, er, tn, tl, tr, fold_pairs, sum_pyPairs]
    simp only [Cfg.onArr]
    rw [row_sum fun i j => C.str (vLoc i) j (w.sig i j) (w.ms i j) c]
    by_cases hc : C.InnerAt (vLoc k) c
    · rw [if_pos (inner_inArr hc.1)]
      rfl
    · rw [divS_out hc, hs.v k c hc]
      have hz : ∑ j, C.str (vLoc k) j (w.sig k j) (w.ms k j) c = 0 := divS_out hc
      rw [hz]
      simp
  · rfl
  · rfl
  · rfl
  · funext i j
    simp only [Cfg.pyVel, en, el, er, Cfg.halfV]
    exact pick_eq (fun i j => C.mem' (vLoc i) j (w.sig i j) (w.ms i j)) (fun _ => rfl)
      (fun _ => rfl) (fun _ => rfl) i j

theorem pyStr_eq {w : Wavefields d R} (hs : C.Supp w) (q : Fin np → R) :
    { C.pyStr w with s := fun i => pyScatter ((C.pyStr w).s i) C.srcP q } = C.halfS q w := by
  have hL : ∀ i j k : Fin d, k ≠ j → vLoc i k = sLoc i j k := fun i j k h => (vLoc_ne h).symm
  have hn : ∀ i : Fin d, sLoc i i i = false := fun i => by simp [sLoc]
  have hne : ∀ {i j : Fin d}, i ≠ j → sLoc i j j = true := fun {i j} h => by
    simp [sLoc, h.symm]
  have en : ∀ i, (C.onArr fun c => C.a i (c i) * w.mv i i c + C.b i (c i) * C.pyD i (w.v i) c) =
      C.mem' (sLoc i i) i (w.v i) (w.mv i i) := fun i =>
    pyMem_eq (hn i) (hs.v i) (hL i i) (hs.mv i i)
  have es : ∀ i j, i ≠ j →
      (C.onArr fun c => C.ah j (c j) * w.mv i j c + C.bh j (c j) * C.pyDH j (w.v i) c) =
      C.mem' (sLoc i j) j (w.v i) (w.mv i j) := fun i j h =>
    pyMem_eq (hne h) (hs.v i) (hL i j) (hs.mv i j)
  have tn : ∀ i c, C.pyD i (w.v i) c + C.mem' (sLoc i i) i (w.v i) (w.mv i i) c = C.gradV w i i c :=
    fun i c => pyDiff_add_mem (hn i) (hs.v i) (hL i i) c
  have ts : ∀ i j, i ≠ j → ∀ c, C.pyDH j (w.v i) c + C.mem' (sLoc i j) j (w.v i) (w.mv i j) c =
      C.gradV w i j c := fun i j h c => pyDiff_add_mem (hne h) (hs.v i) (hL i j) c
  have hsum : ∀ x : Fin d → R, (List.finRange d).foldl (fun a i => a + x i) 0 = ∑ k, x k := fun x => by
    rw [← List.sum_ofFn, List.ofFn_eq_map, List.sum_eq_foldl, List.foldl_map]
  ext1
  · rfl
  · funext i c
    simp only [pyScatter_eq, Cfg.halfS]
    congr 1
    simp only [Cfg.pyStr, en, tn, hsum]
    unfold Cfg.onArr
    by_cases hc : C.Inner c
    · rw [if_pos (inner_inArr hc)]
    · simp [gradV_diag_out hc, hs.s i c hc]
  · funext p c
    simp only [Cfg.pyStr, Cfg.halfS, es _ _ p.2.ne, es _ _ p.2.ne', ts _ _ p.2.ne, ts _ _ p.2.ne']
    unfold Cfg.onArr
    by_cases hc : C.InnerAt (sLoc p.1.1 p.1.2) c
    · rw [if_pos (inner_inArr hc.1)]
    · have h1 : C.gradV w p.1.1 p.1.2 c = 0 := str_out hc
      have h2 : C.gradV w p.1.2 p.1.1 c = 0 := str_out (by rwa [sLoc_comm])
      simp [h1, h2, hs.sh p c hc]
  · funext i j
    simp only [Cfg.pyStr, en, Cfg.halfS]
    exact pick_eq (fun i j => C.mem' (sLoc i j) j (w.v i) (w.mv i j)) (fun _ => rfl)
      (fun p => es _ _ p.2.ne) (fun p => es _ _ p.2.ne') i j
  · rfl

/-- Memory after `n` inner steps. -/
structure PyInv (C : Cfg d np mp nv mv R) (fp : ℕ → Fin np → R)
    (fv : (k : Fin d) → ℕ → Fin (nv k) → R) (s : Wavefields d R) (n : ℕ) (m : PyMem d mp mv R) :
    Prop where
  wf : m.wf = C.run fp fv s n
  rcdP : ∀ t, m.rcdP t = if t < n then sample C.rcvP (C.run fp fv s t).prs else fun _ => 0
  rcdV : ∀ k t, m.rcdV k t = if t < n then sample (C.rcvV k) ((C.run fp fv s t).v k) else fun _ => 0

omit [Field R] in
/-- Flat index 0 is in the padding. -/
theorem origin_out (hd : 0 < d) : ¬C.Inner fun _ => 0 := fun h => by
  have : (C.acc.pad : ℤ) ≤ 0 := (h ⟨0, hd⟩).1
  have := pad_pos C.acc
  omega

theorem gather_eq {m : ℕ} {loc : Fin m → Option (Cell d)} {u : Fld d R} (h0 : u (fun _ => 0) = 0) :
    pyGather u loc = sample loc u := by
  funext i
  cases e : loc i <;> simp [pyGather, sample, e, h0]

theorem update_step {α : Type*} {n : ℕ} {x : ℕ → α} {f : ℕ → α} {z y : α} (hy : y = f n)
    (h : ∀ t, x t = if t < n then f t else z) (t : ℕ) :
    Function.update x n y t = if t < n + 1 then f t else z := by
  by_cases ht : t = n
  · subst ht; simp [hy]
  · rw [Function.update_of_ne ht, h t]
    have : t < n + 1 ↔ t < n := by omega
    simp only [this]

theorem PyInv.step {fp : ℕ → Fin np → R} {fv : (k : Fin d) → ℕ → Fin (nv k) → R}
    {s : Wavefields d R} {n : ℕ} {m : PyMem d mp mv R} (hd : 0 < d) (h : C.WF) (hs : C.Supp s)
    (hi : PyInv C fp fv s n m) : PyInv C fp fv s (n + 1) (C.pyInner fp fv n m) := by
  have hg := run_supp h fp fv hs n
  have ho := origin_out (C := C) hd
  refine ⟨?_, fun t => ?_, fun k t => ?_⟩
  · have e1 := pyVel_eq (C := C) hg fun k => fv k n
    have e2 := pyStr_eq (C := C) (halfV_supp h (fun k => fv k n) hg) (fp n)
    simp only [Cfg.pyInner, hi.wf]
    rw [e1]
    exact e2
  · simp only [Cfg.pyInner, hi.wf]
    refine update_step (f := fun t => sample C.rcvP (C.run fp fv s t).prs) ?_ hi.rcdP t
    have hsum : ∀ x : Fin d → R, (List.finRange d).foldl (fun a i => a + x i) 0 = ∑ k, x k := fun x => by
      rw [← List.sum_ofFn, List.ofFn_eq_map, List.sum_eq_foldl, List.foldl_map]
    funext r
    simp only [hsum, gather_eq (hg.s _ _ ho)]
    cases e : C.rcvP r <;> simp [sample, e, Wavefields.prs]
  · simp only [Cfg.pyInner, hi.wf]
    exact update_step (f := fun t => sample (C.rcvV k) ((C.run fp fv s t).v k))
      (gather_eq (hg.v k _ fun hc => ho hc.1)) (hi.rcdV k) t

/-- The result of the Python driver in terms of the reference recursion. -/
theorem pyForward_eq (hd : 0 < d) (h : C.WF) (cb : Option ℕ) (hcb : ∀ cf, cb = some cf → 0 < cf)
    (nt : ℕ) (fp : ℕ → Fin np → R) (fv : (k : Fin d) → ℕ → Fin (nv k) → R) (w : Init d R)
    (hr : 0 < C.ratio) :
    C.pyForward cb nt fp fv w = .ok
      (let T := nt / C.ratio * C.ratio
       let s := C.pyPrepare w
       { out := C.unpadAll (C.run fp fv s T)
         rcdP := fun t => if t < T then sample C.rcvP (C.run fp fv s t).prs else fun _ => 0
         rcdV := fun k t => if t < T then sample (C.rcvV k) ((C.run fp fv s t).v k) else fun _ => 0
         events := match cb with
           | none => []
           | some cf => (List.range ((nt / C.ratio + cf - 1) / cf)).map
               fun i => ⟨i * cf, C.run fp fv s (i * cf * C.ratio)⟩ }) := by
  have inv : ∀ n, PyInv C fp fv (C.pyPrepare w) n (Driver.runF id (C.pyInner fp fv)
      (⟨C.pyPrepare w, fun _ _ => 0, fun _ _ _ => 0⟩ : PyMem d mp mv R) n) :=
    Driver.runF_inv ⟨rfl, fun _ => by simp, fun _ _ => by simp⟩
      fun n m hm => hm.step hd h (pyPrepare_supp w)
  unfold Cfg.pyForward
  rw [if_neg hr.ne', Driver.pyDrive_eq cb hcb]
  have i1 := inv (nt / C.ratio * C.ratio)
  simp only [i1.wf]
  congr 2
  · exact funext i1.rcdP
  · exact funext fun k => funext (i1.rcdV k)
  · cases cb with
    | none => rfl
    | some cf =>
        simp only
        refine List.map_congr_left fun i _ => ?_
        rw [(inv (i * cf * C.ratio)).wf]

/-! ### The interiors that the Python backend does not set to zero -/

/-- Two states that differ only in memory variables at points outside the PML. -/
structure Cfg.Agree (C : Cfg d np mp nv mv R) (w w' : Wavefields d R) : Prop where
  v : w.v = w'.v
  s : w.s = w'.s
  sh : w.sh = w'.sh
  mv : ∀ i j c, ¬C.MidAt (sLoc i j j) j (c j) → w.mv i j c = w'.mv i j c
  ms : ∀ i j c, ¬C.MidAt (vLoc i j) j (c j) → w.ms i j c = w'.ms i j c

theorem prepare_agree (w : Init d R) : C.Agree (C.pyPrepare w) (C.prepare w) where
  v := rfl
  s := rfl
  sh := rfl
  mv := fun _ _ _ hc => (if_neg hc).symm
  ms := fun _ _ _ hc => (if_neg hc).symm

theorem mem'_agree (h : C.WF) {L : Loc d} {k : Fin d} {u m m' : Fld d R}
    (hm : ∀ c, ¬C.MidAt (L k) k (c k) → m c = m' c) : C.mem' L k u m = C.mem' L k u m' := by
  funext c
  by_cases hc : C.MidAt (L k) k (c k)
  · rw [mem'_mid h hc, mem'_mid h hc]
  · simp only [Cfg.mem', hm c hc]

theorem str_agree (h : C.WF) {L : Loc d} {k : Fin d} {u m m' : Fld d R}
    (hm : ∀ c, ¬C.MidAt (L k) k (c k) → m c = m' c) : C.str L k u m = C.str L k u m' := by
  funext c
  simp only [Cfg.str, mem'_agree h hm]

/-- One step makes them equal. -/
theorem next_agree (h : C.WF) (qp : Fin np → R) (qv : (k : Fin d) → Fin (nv k) → R)
    {w w' : Wavefields d R} (g : C.Agree w w') : C.next qp qv w = C.next qp qv w' := by
  have hsig : w.sig = w'.sig := by
    funext i j; simp only [Wavefields.sig, g.s, g.sh]
  have hv : C.Agree (C.halfV qv w) (C.halfV qv w') := by
    refine ⟨?_, g.s, g.sh, g.mv, fun i j c _ => ?_⟩
    · funext i c
      simp only [Cfg.halfV, Cfg.divS, g.v, hsig, str_agree h (g.ms i _)]
    · simp only [Cfg.halfV, hsig, mem'_agree h (g.ms i j)]
  have hms : (C.halfV qv w).ms = (C.halfV qv w').ms := by
    funext i j; simp only [Cfg.halfV, hsig, mem'_agree h (g.ms i j)]
  have hg : ∀ i j, C.gradV (C.halfV qv w) i j = C.gradV (C.halfV qv w') i j := fun i j => by
    simp only [Cfg.gradV, hv.v, str_agree h (hv.mv i j)]
  unfold Cfg.next
  ext1
  · exact hv.v
  · funext i c
    simp only [Cfg.halfS, hg, hv.s]
  · funext p c
    simp only [Cfg.halfS, hg, hv.sh]
  · funext i j
    simp only [Cfg.halfS, hv.v, mem'_agree h (hv.mv i j)]
  · exact hms

theorem run_agree (h : C.WF) (fp : ℕ → Fin np → R) (fv : (k : Fin d) → ℕ → Fin (nv k) → R)
    {w w' : Wavefields d R} (g : C.Agree w w') : ∀ n, 0 < n → C.run fp fv w n = C.run fp fv w' n
  | 1, _ => next_agree h _ _ g
  | n + 2, _ => by
      show C.next _ _ (C.run fp fv w (n + 1)) = C.next _ _ (C.run fp fv w' (n + 1))
      rw [run_agree h fp fv g (n + 1) (by omega)]

end Dw.Elastic
