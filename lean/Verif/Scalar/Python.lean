import Verif.Scalar.Forward

/-!
# Model of the pure Python scalar propagator

Models `_forward_step` (`scalar.py` 1882-1928) and `scalar_python` (`scalar.py` 1936-2098), for one
shot.  Tensors are functions on cells; positions outside the array hold zero.  `IGNORE_LOCATION`
is `none`.  Options that the Python backend rejects (backward callback, storage options) and vmap
are not modelled.
-/

namespace Dw.Scalar

variable {d ns nr : ℕ} {R : Type*} [Field R]

/-- Cells of the padded array. -/
def Cfg.InArr (C : Cfg d ns nr R) (c : Cell d) : Prop := ∀ k, 0 ≤ c k ∧ c k < C.n k

instance (C : Cfg d ns nr R) (c : Cell d) : Decidable (C.InArr c) :=
  inferInstanceAs (Decidable (∀ _, _))

/-- `regular_grid.diff1(a, dim, ...)` (`regular_grid.py` 316-333). -/
def Cfg.pyD1 (C : Cfg d ns nr R) (k : Fin d) (u : Fld d R) : Fld d R := fun c =>
  pyDiff1 C.acc (C.n k) (1 / C.dx k) (fun x => u (Function.update c k x)) (c k)

/-- `regular_grid.diff2(a, dim, ...)` (`regular_grid.py` 336-353). -/
def Cfg.pyD2 (C : Cfg d ns nr R) (k : Fin d) (u : Fld d R) : Fld d R := fun c =>
  pyDiff2 C.acc (C.n k) (1 / C.dx k ^ 2) (fun x => u (Function.update c k x)) (c k)

/-- `_forward_step` (`scalar.py` 1882-1928). -/
def Cfg.pyStep (C : Cfg d ns nr R) (s : St d R) : St d R :=
  let dudx := fun k => C.pyD1 k s.u
  let tmp := fun k c => (1 + C.b k (c k)) * C.pyD2 k s.u c + C.db k (c k) * dudx k c
    + C.pyD1 k (fun c => C.a k (c k) * s.psi k c) c
  let wSum := fun c => (List.finRange d).foldl (fun w k =>
    w + (1 + C.b k (c k)) * tmp k c + C.a k (c k) * s.zeta k c) 0
  { u := fun c => if C.InArr c then C.v c ^ 2 * C.dt * C.dt * wSum c + 2 * s.u c - s.p c else 0
    p := s.u
    psi := fun k c => if C.InArr c then C.b k (c k) * dudx k c + C.a k (c k) * s.psi k c else 0
    zeta := fun k c => if C.InArr c then C.b k (c k) * tmp k c + C.a k (c k) * s.zeta k c else 0 }

/-- `scatter_add_` with masked locations and amplitudes (`scalar.py` 2018-2025, 2076-2079): an
ignored location becomes index 0 with amplitude 0. -/
def pyScatter {m : ℕ} (w : Fld d R) (loc : Fin m → Option (Cell d)) (amp : Fin m → R) : Fld d R :=
  (List.finRange m).foldl (fun w i =>
    let c := (loc i).getD fun _ => 0
    Function.update w c (w c + if (loc i).isSome then amp i else 0)) w

/-- `gather` with masked locations (`scalar.py` 2027-2031, 2069-2074). -/
def pyGather {m : ℕ} (w : Fld d R) (loc : Fin m → Option (Cell d)) : Fin m → R :=
  fun i => w ((loc i).getD fun _ => 0)

structure PyMem (d nr : ℕ) (R : Type*) where
  st : St d R
  rcd : ℕ → Fin nr → R
  events : List (Event d R)

/-- Body of the inner loop (`scalar.py` 2068-2079). -/
def Cfg.pyInner (C : Cfg d ns nr R) (f : ℕ → Fin ns → R) (t : ℕ) (m : PyMem d nr R) : PyMem d nr R :=
  let rcd := Function.update m.rcd t (pyGather m.st.u C.rcv)
  let st := C.pyStep m.st
  { st := { st with u := pyScatter st.u C.src (f t) }, rcd := rcd, events := m.events }

/-- Body of the outer loop (`scalar.py` 2046-2079). -/
def Cfg.pyOuter (C : Cfg d ns nr R) (cb : Option ℕ) (f : ℕ → Fin ns → R) (m : PyMem d nr R)
    (step : ℕ) : PyMem d nr R :=
  let m := match cb with
    | some cf => if step % cf = 0 then
        { m with events := m.events ++ [⟨step, ⟨m.st.u, m.st.p, m.st.psi, m.st.zeta⟩⟩] } else m
    | none => m
  (List.range C.ratio).foldl (fun m inner => C.pyInner f (step * C.ratio + inner) m) m

structure PyResult (d nr : ℕ) (R : Type*) where
  out : Wavefields d R
  rcd : ℕ → Fin nr → R
  events : List (Event d R)

/-- `scalar_python` (`scalar.py` 1936-2098). -/
def Cfg.pyForward (C : Cfg d ns nr R) (cb : Option ℕ) (nt : ℕ) (f : ℕ → Fin ns → R) (w : Init d R) :
    Except PyErr (PyResult d nr R) :=
  if C.ratio = 0 then .error .zeroDivision else
  let m₀ : PyMem d nr R := ⟨⟨C.createOrPad w.wfc, C.createOrPad w.wfp,
    fun k => C.createOrPad (w.psi k), fun k => C.createOrPad (w.zeta k)⟩, fun _ _ => 0, []⟩
  let m := (List.range (nt / C.ratio)).foldl (C.pyOuter cb f) m₀
  .ok { out := ⟨C.unpad m.st.u, C.unpad m.st.p, fun k => C.unpad (m.st.psi k),
          fun k => C.unpad (m.st.zeta k)⟩
        rcd := fun t i => if (C.rcv i).isSome then m.rcd t i else 0
        events := m.events }

/-! ### Relation to the reference recursion -/

variable {C : Cfg d ns nr R}

theorem Cfg.pyD1_eq (k : Fin d) (u : Fld d R) (c : Cell d) :
    C.pyD1 k u c = if (C.acc.pad : ℤ) ≤ c k ∧ c k < C.n k - C.acc.pad then C.D1 k u c else 0 := by
  have e : ∀ j : ℤ, Function.update c k (c k + j) = c.shift k j := by
    intro j
    funext i
    by_cases hi : i = k
    · subst hi; simp
    · rw [Function.update_of_ne hi, Cell.shift_ne _ _ _ _ hi]
  simp only [Cfg.pyD1, pyDiff1_eq, e]
  rfl

theorem Cfg.pyD2_eq (k : Fin d) (u : Fld d R) (c : Cell d) :
    C.pyD2 k u c = if (C.acc.pad : ℤ) ≤ c k ∧ c k < C.n k - C.acc.pad then C.D2 k u c else 0 := by
  have e : ∀ j : ℤ, Function.update c k (c k + j) = c.shift k j := by
    intro j
    funext i
    by_cases hi : i = k
    · subst hi; simp
    · rw [Function.update_of_ne hi, Cell.shift_ne _ _ _ _ hi]
  simp only [Cfg.pyD2, pyDiff2_eq, e]
  rfl

/-- Off the interior the Python derivatives vanish, for fields that vanish there. -/
theorem Cfg.pyD_outside (k : Fin d) {u : Fld d R} (hu : ∀ c, ¬C.Inner c → u c = 0) (c : Cell d)
    (hc : ¬C.Inner c) : C.pyD1 k u c = 0 ∧ C.pyD2 k u c = 0 := by
  rw [Cfg.pyD1_eq, Cfg.pyD2_eq]
  by_cases hk : (C.acc.pad : ℤ) ≤ c k ∧ c k < C.n k - C.acc.pad
  · have hz : ∀ j : ℤ, u (c.shift k j) = 0 := by
      intro j
      refine hu _ fun hi => hc fun i => ?_
      by_cases hik : i = k
      · subst hik; exact hk
      · have := hi i
        rwa [Cell.shift_ne _ _ _ _ hik] at this
    rw [if_pos hk, if_pos hk]
    simp [Cfg.D1, Cfg.D2, Dw.D1, Dw.D2, hz]
  · simp [hk]

theorem foldl_add_two (l : List (Fin d)) (x y : Fin d → R) (w : R) :
    l.foldl (fun w k => w + x k + y k) w = w + (l.map fun k => x k + y k).sum := by
  induction l generalizing w with
  | nil => simp
  | cons a l ih => rw [List.foldl_cons, ih, List.map_cons, List.sum_cons]; ring

/-- The states agree except for the parts of the memory variables that have no influence. -/
structure Cfg.PyRel (C : Cfg d ns nr R) (s' s : St d R) : Prop where
  u : s'.u = s.u
  p : s'.p = s.p
  psi : ∀ k c, C.a k (c k) * s'.psi k c = C.a k (c k) * s.psi k c
  zeta : ∀ k c, C.a k (c k) * s'.zeta k c = C.a k (c k) * s.zeta k c

omit [Field R] in
theorem Cfg.inner_inArr {c : Cell d} (hc : C.Inner c) : C.InArr c := fun k => by
  have := hc k
  omega

theorem Cfg.pyStep_eq {s' s : St d R} (h : C.PyRel s' s) (hs : C.Good s) :
    C.pyStep s' = C.refStep s := by
  have hap : ∀ k, ∀ c, ¬C.Inner c → C.a k (c k) * s.psi k c = 0 := fun k c hc => by
    rw [hs.psi k c hc, mul_zero]
  have hin1 : ∀ k u c, C.Inner c → C.pyD1 k u c = C.D1 k u c := fun k u c hc => by
    rw [Cfg.pyD1_eq, if_pos (hc k)]
  have hin2 : ∀ k u c, C.Inner c → C.pyD2 k u c = C.D2 k u c := fun k u c hc => by
    rw [Cfg.pyD2_eq, if_pos (hc k)]
  have hsum : ∀ x : Fin d → R, ((List.finRange d).map x).sum = ∑ k, x k := fun x => by
    rw [← List.ofFn_eq_map, List.sum_ofFn]
  ext1
  · funext c
    simp only [Cfg.pyStep, Cfg.refStep, h.u, h.p, h.psi, h.zeta, foldl_add_two, hsum]
    by_cases hc : C.Inner c
    · rw [if_pos (Cfg.inner_inArr hc), if_pos hc]
      simp only [hin1 _ _ _ hc, hin2 _ _ _ hc, Cfg.lap, Cfg.tmp]
      ring
    · rw [if_neg hc]
      split_ifs
      · simp [(Cfg.pyD_outside _ hs.u c hc).1, (Cfg.pyD_outside _ hs.u c hc).2,
          (Cfg.pyD_outside _ (hap _) c hc).1, hs.u c hc, hs.p c hc, hs.zeta _ c hc]
      · rfl
  · exact h.u
  · funext k c
    simp only [Cfg.pyStep, Cfg.refStep, h.u, h.psi]
    by_cases hc : C.Inner c
    · rw [if_pos (Cfg.inner_inArr hc), if_pos hc, hin1 _ _ _ hc]
    · rw [if_neg hc]
      split_ifs
      · simp [(Cfg.pyD_outside _ hs.u c hc).1, hs.psi _ c hc]
      · rfl
  · funext k c
    simp only [Cfg.pyStep, Cfg.refStep, h.u, h.psi, h.zeta]
    by_cases hc : C.Inner c
    · rw [if_pos (Cfg.inner_inArr hc), if_pos hc]
      simp only [hin1 _ _ _ hc, hin2 _ _ _ hc, Cfg.tmp]
    · rw [if_neg hc]
      split_ifs
      · simp [(Cfg.pyD_outside _ hs.u c hc).1, (Cfg.pyD_outside _ hs.u c hc).2,
          (Cfg.pyD_outside _ (hap _) c hc).1, hs.zeta _ c hc]
      · rfl

theorem pyScatter_eq {m : ℕ} (w : Fld d R) (loc : Fin m → Option (Cell d)) (amp : Fin m → R) :
    pyScatter w loc amp = fun c => w c + inject loc amp c := by
  have h : pyScatter w loc amp = addTo w loc amp := by
    unfold pyScatter addTo
    congr 1
    funext w i
    cases loc i with
    | none => simp
    | some c => simp
  rw [h]
  funext c
  exact addTo_eq w loc amp c

/-- Memory after `n` inner steps, with the events of the outer steps in `evs`. -/
structure Cfg.PyInv (C : Cfg d ns nr R) (f : ℕ → Fin ns → R) (s₀' s₀ : St d R) (n : ℕ)
    (m : PyMem d nr R) : Prop where
  st : m.st = if n = 0 then s₀' else C.run f 0 s₀ n
  rcd : ∀ t i, (C.rcv i).isSome → m.rcd t i = if t < n then sample C.rcv (C.run f 0 s₀ t).u i else 0

theorem Cfg.PyInv.step {f : ℕ → Fin ns → R} {s₀' s₀ : St d R} {n : ℕ} {m : PyMem d nr R}
    (h : C.WF) (h0 : C.PyRel s₀' s₀) (hg : C.Good s₀) (hi : C.PyInv f s₀' s₀ n m) :
    C.PyInv f s₀' s₀ (n + 1) (C.pyInner f n m) := by
  have hrel : C.PyRel m.st (C.run f 0 s₀ n) := by
    rw [hi.st]
    split_ifs with hn
    · subst hn; exact h0
    · exact ⟨rfl, rfl, fun _ _ => rfl, fun _ _ => rfl⟩
  refine ⟨?_, fun t i hr => ?_⟩
  · rw [if_neg (by omega)]
    simp only [Cfg.pyInner, Cfg.pyStep_eq hrel (C.run_good h f 0 hg n), pyScatter_eq, Cfg.run,
      Nat.zero_add]
    rfl
  · simp only [Cfg.pyInner]
    by_cases ht : t = n
    · subst ht
      rw [Function.update_self, if_pos (by omega)]
      simp only [pyGather, sample, hrel.u]
      obtain ⟨c, hc⟩ := Option.isSome_iff_exists.1 hr
      simp [hc]
    · rw [Function.update_of_ne ht, hi.rcd t i hr]
      have : t < n + 1 ↔ t < n := by omega
      simp only [this]

theorem Cfg.PyInv.inner {f : ℕ → Fin ns → R} {s₀' s₀ : St d R} {n : ℕ} {m : PyMem d nr R}
    (h : C.WF) (h0 : C.PyRel s₀' s₀) (hg : C.Good s₀) (hi : C.PyInv f s₀' s₀ n m) (k : ℕ) :
    C.PyInv f s₀' s₀ (n + k) ((List.range k).foldl (fun m i => C.pyInner f (n + i) m) m) ∧
      ((List.range k).foldl (fun m i => C.pyInner f (n + i) m) m).events = m.events := by
  induction k with
  | zero => exact ⟨hi, rfl⟩
  | succ k ih =>
      rw [List.range_succ, List.foldl_append]
      exact ⟨ih.1.step h h0 hg, ih.2⟩

/-- What a Python callback sees at outer step `i`. -/
def Cfg.pyEventAt (C : Cfg d ns nr R) (f : ℕ → Fin ns → R) (s₀' s₀ : St d R) (i : ℕ) : Event d R :=
  let s := if i * C.ratio = 0 then s₀' else C.run f 0 s₀ (i * C.ratio)
  ⟨i, ⟨s.u, s.p, s.psi, s.zeta⟩⟩

theorem Cfg.PyInv.outer {f : ℕ → Fin ns → R} {s₀' s₀ : St d R} {m : PyMem d nr R}
    (h : C.WF) (h0 : C.PyRel s₀' s₀) (hg : C.Good s₀) (cb : Option ℕ)
    (hi : C.PyInv f s₀' s₀ 0 m) (hm : m.events = []) (N : ℕ) :
    C.PyInv f s₀' s₀ (N * C.ratio) ((List.range N).foldl (C.pyOuter cb f) m) ∧
      ((List.range N).foldl (C.pyOuter cb f) m).events = match cb with
        | none => []
        | some cf => ((List.range N).filter fun i => i % cf = 0).map (C.pyEventAt f s₀' s₀) := by
  induction N with
  | zero => exact ⟨by simpa using hi, by cases cb <;> simp [hm]⟩
  | succ N ih =>
      rw [List.range_succ, List.foldl_append, List.foldl_cons, List.foldl_nil]
      generalize (List.range N).foldl (C.pyOuter cb f) m = m1 at ih
      obtain ⟨h1, h2⟩ := ih
      rw [Nat.succ_mul]
      cases cb with
      | none =>
          have := h1.inner h h0 hg C.ratio
          exact ⟨this.1, this.2.trans h2⟩
      | some cf =>
          simp only [Cfg.pyOuter]
          split_ifs with hN
          · have h1' : C.PyInv f s₀' s₀ (N * C.ratio) { m1 with
                events := m1.events ++ [⟨N, ⟨m1.st.u, m1.st.p, m1.st.psi, m1.st.zeta⟩⟩] } :=
              ⟨h1.st, h1.rcd⟩
            have := h1'.inner h h0 hg C.ratio
            refine ⟨this.1, this.2.trans ?_⟩
            simp only at h2
            simp only [h2, List.filter_append, List.map_append]
            simp [hN, Cfg.pyEventAt, h1.st]
          · have := h1.inner h h0 hg C.ratio
            refine ⟨this.1, this.2.trans ?_⟩
            simp only at h2
            simp [h2, hN]

/-- The steps at which the two backends call the callback are the same. -/
theorem filter_range_eq (N cf : ℕ) (hcf : 0 < cf) :
    ((List.range N).filter fun i => i % cf = 0) =
      (List.range ((N + cf - 1) / cf)).map fun i => i * cf := by
  have h1 : ((List.range N).filter fun i => i % cf = 0).Pairwise (· < ·) :=
    List.pairwise_lt_range.filter _
  have h2 : ((List.range ((N + cf - 1) / cf)).map fun i => i * cf).Pairwise (· < ·) := by
    rw [List.pairwise_map]
    exact List.pairwise_lt_range.imp fun h => Nat.mul_lt_mul_of_pos_right h hcf
  refine List.Perm.eq_of_pairwise (fun a b _ _ h h' => absurd (h.trans h') (lt_irrefl _)) h1 h2 ?_
  rw [List.perm_ext_iff_of_nodup (h1.imp fun h => h.ne) (h2.imp fun h => h.ne)]
  intro j
  simp only [List.mem_filter, List.mem_range, decide_eq_true_eq, List.mem_map]
  constructor
  · rintro ⟨hj, hd⟩
    have e : j / cf * cf = j := Nat.div_mul_cancel (Nat.dvd_of_mod_eq_zero hd)
    refine ⟨j / cf, ?_, e⟩
    rw [Nat.lt_iff_add_one_le, Nat.le_div_iff_mul_le hcf, Nat.add_mul, e]
    omega
  · rintro ⟨i, hi, rfl⟩
    refine ⟨?_, Nat.mul_mod_left _ _⟩
    have h1 : (i + 1) * cf ≤ N + cf - 1 :=
      (Nat.mul_le_mul_right cf hi).trans (Nat.div_mul_le_self _ _)
    rw [Nat.add_mul] at h1
    omega

end Dw.Scalar
