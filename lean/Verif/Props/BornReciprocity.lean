import Verif.Props.Born
import Verif.Props.ScalarReciprocity

/-!
# Reciprocity of the Born propagator without PML
-/

namespace Dw.Born

open Dw.Scalar

variable {d nr nr' : ℕ}

/-- The survey with the source and the receiver of the scattered field exchanged, and with receivers
`bg` of the background field. -/
def BCfg.exchanged {R : Type*} (B : BCfg d 1 nr 1 R) (bg : Fin nr' → Option (Cell d)) :
    BCfg d 1 nr' 1 R where
  base := { B.base with src := B.rcvsc, rcv := bg }
  scatter := B.scatter
  rcvsc := B.base.src

/-- Wavefields that are zero. -/
def atRest : Wavefields d ℝ := ⟨fun _ => 0, fun _ => 0, fun _ _ => 0, fun _ _ => 0⟩

theorem plus_atRest (e : ℝ) : plus (atRest (d := d)) e atRest = atRest := by
  simp [plus, atRest]

theorem forward_atRest {ns nq : ℕ} (B : BCfg d ns nr nq ℝ) (gv gs : Bool)
    (cb : Option ℕ) (nt : ℕ) (f fsc : ℕ → Fin ns → ℝ) :
    B.forward gv gs cb nt f fsc atRest.toInit atRest.toInit =
      B.forward gv gs cb nt f fsc Init.none Init.none := by
  have e : B.base.initBufs (atRest (d := d)).toInit = B.base.initBufs Init.none := by
    simp only [Cfg.initBufs, Wavefields.toInit, atRest, Init.none, Cfg.createOrPad, ite_self]
  have e' : B.fInit (atRest (d := d)).toInit atRest.toInit = B.fInit Init.none Init.none := by
    rw [BCfg.fInit, BCfg.fInit, e]
  unfold BCfg.forward
  rw [e']

theorem scalar_forward_atRest {ns : ℕ} (C : Cfg d ns nr ℝ) (g : Bool) (cb : Option ℕ) (nt : ℕ)
    (f : ℕ → Fin ns → ℝ) :
    C.forward g cb nt f atRest.toInit = C.forward g cb nt f Init.none := by
  have e : C.initBufs (atRest (d := d)).toInit = C.initBufs Init.none := by
    simp only [Cfg.initBufs, Wavefields.toInit, atRest, Init.none, Cfg.createOrPad, ite_self]
  unfold Cfg.forward
  rw [e]

/-- **C77** Without PML and with no initial wavefields, exchanging the source and the receiver of the
scattered field leaves its trace unchanged, for all velocities, scattering potentials, wavelets and
numbers of steps, wherever the receivers of the background field are. -/
theorem C77_born_reciprocity (B : BCfg d 1 nr 1 ℝ) (h : B.WF) (bg : Fin nr' → Option (Cell d))
    (hbg : ∀ i c, bg i = some c → B.base.Inner c)
    (hn : ∀ k x, B.base.a k x = 0 ∧ B.base.b k x = 0 ∧ B.base.db k x = 0) (hr : 0 < B.base.ratio)
    {x y : Cell d} (hx : B.base.src 0 = some x) (hy : B.rcvsc 0 = some y) (gv gs : Bool)
    (cb : Option ℕ) (nt : ℕ) (hcf : 0 < nt → 0 < cb.getD (nt / B.base.ratio)) (f : ℕ → Fin 1 → ℝ) :
    ∃ r r', B.forward gv gs cb nt (scaleAmp B.base f) (scaleAmpSc B f) Init.none Init.none = .ok r ∧
      (B.exchanged bg).forward gv gs cb nt (scaleAmp (B.exchanged bg).base f)
        (scaleAmpSc (B.exchanged bg) f) Init.none Init.none = .ok r' ∧
      r.rcdsc = r'.rcdsc := by
  have h' : (B.exchanged bg).WF :=
    ⟨{ h.base with src_in := h.rcvsc_in, rcv_in := hbg }, h.base.src_in⟩
  obtain ⟨r, b, hr1, hb, hd, -⟩ := C29_born_is_derivative h hr gv gs false cb cb nt hcf hcf f atRest atRest
  obtain ⟨r', b', hr2, hb', hd', -⟩ := C29_born_is_derivative h' hr gv gs false cb cb nt hcf hcf f
    atRest atRest
  rw [forward_atRest] at hb hb'
  refine ⟨b, b', hb, hb', ?_⟩
  have same : ∀ e, (r e).rcd = (r' e).rcd := by
    intro e
    let C : Cfg d 1 1 ℝ :=
      { B.base with v := fun c => B.base.v c + e * B.scatter c, rcv := B.rcvsc }
    have hC : C.WF := { h.base with rcv_in := h.rcvsc_in }
    obtain ⟨q, q', h1, h2, h3⟩ := C41_reciprocity C hC hn hr hx hy false cb nt hcf f
    have e1 := hr1 e
    have e2 := hr2 e
    rw [plus_atRest, scalar_forward_atRest] at e1 e2
    have s1 := h1.symm.trans e1
    have s2 := h2.symm.trans e2
    rw [← Except.ok.inj s1, ← Except.ok.inj s2, h3]
  funext t i
  have k1 := hd t i
  have k2 := hd' t i
  simp only [same] at k1
  exact k1.unique k2

/-- A model with variable velocity and scattering potential. -/
noncomputable def exBFree : BCfg 2 1 1 1 ℝ where
  base := { exCfgOf ℝ with
    a := fun _ _ => 0, b := fun _ _ => 0, db := fun _ _ => 0, src := fun _ => some ![4, 5] }
  scatter := (exB ℝ).scatter
  rcvsc := fun _ => some ![5, 6]

theorem exBFree_wf : exBFree.WF :=
  ⟨{ exCfgOf_wf ℝ with
      a_mid := fun _ _ _ => rfl, b_mid := fun _ _ _ => rfl, db_mid := fun _ _ _ _ => rfl
      src_in := fun i c hc => (exCfgOf_wf ℝ).src_in 0 c hc }, (exB_wf ℝ).rcvsc_in⟩

example : ∃ r r', exBFree.forward true true (some 3) 14 (scaleAmp exBFree.base fun t _ => (t : ℝ) + 1)
      (scaleAmpSc exBFree fun t _ => (t : ℝ) + 1) Init.none Init.none = .ok r ∧
    (exBFree.exchanged (nr' := 0) Fin.elim0).forward true true (some 3) 14
      (scaleAmp (exBFree.exchanged (nr' := 0) Fin.elim0).base fun t _ => (t : ℝ) + 1)
      (scaleAmpSc (exBFree.exchanged (nr' := 0) Fin.elim0) fun t _ => (t : ℝ) + 1)
      Init.none Init.none = .ok r' ∧ r.rcdsc = r'.rcdsc :=
  C77_born_reciprocity exBFree exBFree_wf _ (fun i => i.elim0) (fun _ _ => ⟨rfl, rfl, rfl⟩) (by decide)
    rfl rfl _ _ _ _ (by decide) _

end Dw.Born
