import Verif.Scalar.Python
import Verif.Scalar.Example

/-!
# The compiled and the pure Python scalar propagators compute the same

`C.forward` models the compiled backend and `C.pyForward` the Python backend.
-/

namespace Dw.Scalar

variable {d ns nr : ℕ} {R : Type*} [Field R] {C : Cfg d ns nr R}

/-- The state in which the Python backend starts: memory variables keep their interior values. -/
def Cfg.pyStart (C : Cfg d ns nr R) (w : Init d R) : St d R :=
  ⟨C.createOrPad w.wfc, C.createOrPad w.wfp, fun k => C.createOrPad (w.psi k),
    fun k => C.createOrPad (w.zeta k)⟩

theorem Cfg.pyStart_rel (h : C.WF) (w : Init d R) : C.PyRel (C.pyStart w) (C.start w) := by
  have key : ∀ k (x : Fld d R) c, C.a k (c k) * x c = C.a k (c k) * C.zeroInterior k x c := by
    intro k x c
    by_cases hm : C.Mid k (c k)
    · rw [h.a_mid k _ hm]; simp
    · have : C.zeroInterior k x c = x c := if_neg hm
      rw [this]
  exact ⟨rfl, rfl, fun k c => key k _ c, fun k c => key k _ c⟩

/-- The result of the Python driver in terms of the reference recursion. -/
theorem Cfg.pyForward_eq (h : C.WF) (cb : Option ℕ) (nt : ℕ) (f : ℕ → Fin ns → R) (w : Init d R)
    (hr : 0 < C.ratio) (hnt : C.ratio ≤ nt) :
    ∃ p, C.pyForward cb nt f w = .ok p ∧
      p.out = C.outOf (C.run f 0 (C.start w) (nt / C.ratio * C.ratio)) ∧
      (∀ t, p.rcd t = if t < nt / C.ratio * C.ratio then
          sample C.rcv (C.run f 0 (C.start w) t).u else fun _ => 0) ∧
      p.events = match cb with
        | none => []
        | some cf => ((List.range (nt / C.ratio)).filter fun i => i % cf = 0).map
            (C.pyEventAt f (C.pyStart w) (C.start w)) := by
  have h0 := Cfg.pyStart_rel h w
  have hi : C.PyInv f (C.pyStart w) (C.start w) 0
      (⟨C.pyStart w, fun _ _ => 0, []⟩ : PyMem d nr R) := ⟨by simp, by simp⟩
  have key := hi.outer h h0 (C.start_good w) cb rfl (nt / C.ratio)
  have hN : nt / C.ratio * C.ratio ≠ 0 :=
    (Nat.mul_pos (Nat.div_pos hnt hr) hr).ne'
  unfold Cfg.pyForward
  rw [if_neg hr.ne']
  refine ⟨_, rfl, ?_, ?_, key.2⟩
  · have := key.1.st
    rw [if_neg hN] at this
    rw [← this]
    rfl
  · intro t
    funext i
    by_cases hs : (C.rcv i).isSome
    · simp only [hs, if_true]
      refine (key.1.rcd t i hs).trans ?_
      split_ifs <;> rfl
    · have hn : C.rcv i = none := by simpa using hs
      simp only [hn]
      split_ifs <;> simp_all [sample]

/-- What the two backends show to a callback: the same wavefields, and after the first step also
the same memory variables. -/
structure SameEvent (e e' : Event d R) : Prop where
  step : e.step = e'.step
  wfc : e.wf.wfc = e'.wf.wfc
  wfp : e.wf.wfp = e'.wf.wfp
  psi : e.step ≠ 0 → e.wf.psi = e'.wf.psi
  zeta : e.step ≠ 0 → e.wf.zeta = e'.wf.zeta

/-- **C09** For every model, state, source and receiver layout, number of steps of at least one outer
step, and callback frequency: both backends succeed, return the same final wavefields (all of them)
and receiver data, and call the callback at the same steps with the same wavefields.  The memory
variables shown at step 0 are excluded: the compiled backend clears their interior first, the
Python backend does not. -/
theorem C09_backends_agree (h : C.WF) (hr : 0 < C.ratio) (grad : Bool) (cb : Option ℕ)
    (hcb : ∀ cf, cb = some cf → 0 < cf) (nt : ℕ) (hnt : C.ratio ≤ nt) (f : ℕ → Fin ns → R)
    (w : Init d R) :
    ∃ r p, C.forward grad cb nt f w = .ok r ∧ C.pyForward cb nt f w = .ok p ∧
      p.out = r.out ∧ p.rcd = r.rcd ∧ List.Forall₂ SameEvent p.events r.events := by
  have hN : 0 < nt / C.ratio := Nat.div_pos hnt hr
  have hcf : 0 < nt → 0 < cb.getD (nt / C.ratio) := by
    intro _
    cases cb with
    | none => exact hN
    | some cf => exact hcb cf rfl
  obtain ⟨p, hp, h1, h2, h3⟩ := C.pyForward_eq h cb nt f w hr hnt
  refine ⟨_, p, C.forward_eq h grad cb nt f w hr hcf, hp, h1, funext h2, ?_⟩
  · cases cb with
    | none =>
        rw [show p.events = [] from h3]
        exact .nil
    | some cf =>
        simp only at h3 ⊢
        rw [h3, filter_range_eq _ _ (hcb cf rfl), List.map_map, List.forall₂_map_left_iff,
          List.forall₂_map_right_iff]
        refine List.forall₂_same.2 fun i _ => ?_
        simp only [Function.comp_apply]
        by_cases h0 : i * cf * C.ratio = 0
        · have hz : i * cf = 0 := (Nat.mul_eq_zero.1 h0).resolve_right hr.ne'
          refine ⟨rfl, ?_, ?_, ?_, ?_⟩
          · simp [Cfg.pyEventAt, Cfg.eventAt, h0, Cfg.run, Cfg.start, Cfg.pyStart]
          · simp [Cfg.pyEventAt, Cfg.eventAt, h0, Cfg.run, Cfg.start, Cfg.pyStart]
          · intro hs; exact absurd hz hs
          · intro hs; exact absurd hz hs
        · constructor <;> simp [Cfg.pyEventAt, Cfg.eventAt, h0]

example : ∃ r p, exCfg.forward true (some 3) 14 (exAmp ℚ) (exInit ℚ) = .ok r ∧
    exCfg.pyForward (some 3) 14 (exAmp ℚ) (exInit ℚ) = .ok p ∧
    p.out = r.out ∧ p.rcd = r.rcd ∧ List.Forall₂ SameEvent p.events r.events :=
  C09_backends_agree exCfg_wf (by decide) _ _ (by simp) _ (by decide) _ _

/-- With fewer internal steps than one outer step and no callback, the compiled backend fails where
the Python backend returns. -/
theorem C09_fails_below_one_outer_step (C : Cfg d ns nr R) (grad : Bool) (nt : ℕ) (h0 : 0 < nt)
    (hnt : nt < C.ratio) (f : ℕ → Fin ns → R) (w : Init d R) :
    (∃ e, C.forward grad none nt f w = .error e) ∧ ∃ p, C.pyForward none nt f w = .ok p := by
  have hr : C.ratio ≠ 0 := by omega
  constructor
  · exact ⟨.valueError, by simp [Cfg.forward, hr, h0, Nat.div_eq_of_lt hnt]⟩
  · simp [Cfg.pyForward, hr]

example : (0 : ℕ) < 1 ∧ 1 < exCfg.ratio := by decide

end Dw.Scalar
