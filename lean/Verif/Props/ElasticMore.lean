import Verif.Elastic.Python
import Verif.Props.Elastic

/-!
# The two backends of the elastic propagator (C57)
-/

namespace Dw.Elastic

variable {d np mp : ℕ} {nv mv : Fin d → ℕ} {R : Type*} [Field R] {C : Cfg d np mp nv mv R}

/-- **C57** The Python backend returns the same final wavefields and receiver data as the compiled one
(for ignored receivers too, although the data are returned unmasked).  It calls the callback at the
same steps; velocities and stresses shown are always the same, the memory variables are the same from
step 1 on, and at step 0 they are the same in the PML of their dimension. -/
theorem C57_elastic_backends_agree (hd : 0 < d) (h : C.WF) (hr : 0 < C.ratio) (gl gm gb : Bool)
    (cb : Option ℕ) (hcb : ∀ cf, cb = some cf → 0 < cf) (nt : ℕ) (hnt : C.ratio ≤ nt)
    (fp : ℕ → Fin np → R) (fv : (k : Fin d) → ℕ → Fin (nv k) → R) (w : Init d R) :
    ∃ r p, C.forward gl gm gb cb nt fp fv w = .ok r ∧ C.pyForward cb nt fp fv w = .ok p ∧
      p.out = r.out ∧ p.rcdP = r.rcdP ∧ p.rcdV = r.rcdV ∧
      p.events.map Event.step = r.events.map Event.step ∧
      ∀ (i : ℕ) (e e' : Event d R), p.events[i]? = some e → r.events[i]? = some e' →
        e.wf.v = e'.wf.v ∧ e.wf.s = e'.wf.s ∧ e.wf.sh = e'.wf.sh ∧ (0 < e.step → e.wf = e'.wf) ∧
        ∀ (i j : Fin d) (c : Cell d), (C.MidAt (sLoc i j j) j (c j) ∨ e.wf.mv i j c = e'.wf.mv i j c) ∧
          (C.MidAt (vLoc i j) j (c j) ∨ e.wf.ms i j c = e'.wf.ms i j c) := by
  have hag := prepare_agree (C := C) w
  have hT : 0 < nt / C.ratio * C.ratio := Nat.mul_pos (Nat.div_pos hnt hr) hr
  have hrun : ∀ n, 0 < n → C.run fp fv (C.pyPrepare w) n = C.run fp fv (C.prepare w) n :=
    run_agree h fp fv hag
  have hall : ∀ n, C.Agree (C.run fp fv (C.pyPrepare w) n) (C.run fp fv (C.prepare w) n) := fun n => by
    rcases Nat.eq_zero_or_pos n with rfl | hn
    · exact hag
    · rw [hrun n hn]
      exact ⟨rfl, rfl, rfl, fun _ _ _ _ => rfl, fun _ _ _ _ => rfl⟩
  refine ⟨_, _, forward_eq h gl gm gb cb nt fp fv w hr fun _ => ?_,
    pyForward_eq hd h cb hcb nt fp fv w hr, ?_, ?_, ?_, ?_, ?_⟩
  · cases cb with
    | none => exact Nat.div_pos hnt hr
    | some cf => exact hcb cf rfl
  · simp only [hrun _ hT]
  · funext t
    have : (C.run fp fv (C.pyPrepare w) t).prs = (C.run fp fv (C.prepare w) t).prs := by
      unfold Wavefields.prs
      rw [(hall t).s]
    simp only [this]
  · funext k t
    simp only [(hall t).v]
  · cases cb with
    | none => rfl
    | some cf => simp [List.map_map, Function.comp_def]
  · intro i e e' he he'
    cases cb with
    | none => simp at he
    | some cf =>
        simp only [List.getElem?_map, Option.map_eq_some_iff] at he he'
        obtain ⟨a, ha, rfl⟩ := he
        obtain ⟨a', ha', rfl⟩ := he'
        have : a = a' := Option.some.inj (ha.symm.trans ha')
        subst this
        have g := hall (a * cf * C.ratio)
        refine ⟨g.v, g.s, g.sh, fun hp => hrun _ (Nat.mul_pos hp hr), fun i j c => ⟨?_, ?_⟩⟩
        · by_cases hm : C.MidAt (sLoc i j j) j (c j)
          · exact .inl hm
          · exact .inr (g.mv i j c hm)
        · by_cases hm : C.MidAt (vLoc i j) j (c j)
          · exact .inl hm
          · exact .inr (g.ms i j c hm)

example : 0 < 2 ∧ (exE ℚ).WF ∧ 0 < (exE ℚ).ratio ∧ (exE ℚ).ratio ≤ 14 :=
  ⟨by decide, exE_wf ℚ, by decide, by decide⟩

/-- With fewer internal steps than the step ratio and no callback the compiled backend raises while
the Python one returns. -/
theorem C57_fails_below_one_outer_step (C : Cfg d np mp nv mv R) (gl gm gb : Bool) (nt : ℕ)
    (h0 : 0 < nt) (hnt : nt < C.ratio) (fp : ℕ → Fin np → R)
    (fv : (k : Fin d) → ℕ → Fin (nv k) → R) (w : Init d R) :
    (∃ e, C.forward gl gm gb none nt fp fv w = .error e) ∧
      ∃ p, C.pyForward none nt fp fv w = .ok p := by
  have hr : C.ratio ≠ 0 := by omega
  constructor
  · exact ⟨.valueError, by simp [Cfg.forward, hr, h0, Nat.div_eq_of_lt hnt]⟩
  · simp [Cfg.pyForward, hr]

example : (0 : ℕ) < 1 ∧ 1 < (exE ℚ).ratio := by decide

/-- The exception at step 0 is real: the Python backend shows memory variables outside the PML as they
were passed in, the compiled one shows zero. -/
theorem C57_first_event_differs :
    ∃ r p e e', (exE ℚ).forward true true true (some 3) 14 (fun _ _ => 0) (fun _ _ _ => 0)
        (exWf ℚ).toInit = .ok r ∧
      (exE ℚ).pyForward (some 3) 14 (fun _ _ => 0) (fun _ _ _ => 0) (exWf ℚ).toInit = .ok p ∧
      p.events[0]? = some e ∧ r.events[0]? = some e' ∧
      e.wf.mv 0 0 ![4, 4] = 2 ∧ e'.wf.mv 0 0 ![4, 4] = 0 := by
  have hin : (exE ℚ).Inner ![4, 4] := by
    intro k
    fin_cases k <;> simp [exE, Acc.pad, Scalar.exN]
  have hmid : (exE ℚ).MidAt (sLoc (0 : Fin 2) 0 0) 0 4 := by
    rw [sLoc_diag]
    constructor <;> simp [exE, Acc.pad, Scalar.exN]
  refine ⟨_, _, _, _, forward_eq (exE_wf ℚ) _ _ _ _ _ _ _ _ (by decide) fun _ => by decide,
    pyForward_eq (by decide) (exE_wf ℚ) _ (fun _ e => Option.some.inj e ▸ by decide) _ _ _ _ (by decide),
    rfl, rfl, ?_, ?_⟩
  · have he : ¬∃ k, sLoc (0 : Fin 2) 0 k = true ∧ (![4, 4] : Cell 2) k = (exE ℚ).n k - (exE ℚ).acc.pad := by
      simp [sLoc_diag]
    simp only [Nat.zero_mul, Cfg.run, Cfg.pyPrepare]
    rw [Cfg.zeroEdges, if_neg he]
    simp [Wavefields.toInit, Cfg.createOrPad, hin, exWf]
  · exact ((prepare_good (C := exE ℚ) (exWf ℚ).toInit).mv_mid 0 0 ![4, 4] hmid)

end Dw.Elastic
