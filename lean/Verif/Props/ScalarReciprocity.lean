import Verif.Scalar.Reciprocity
import Verif.Scalar.Example

/-!
# Reciprocity of the scalar propagator without PML
-/

namespace Dw.Scalar

variable {d : ℕ} {R : Type*} [Field R]

/-- The survey with source and receiver exchanged. -/
def Cfg.exchanged (C : Cfg d 1 1 R) : Cfg d 1 1 R := { C with src := C.rcv, rcv := C.src }

/-- No initial wavefields. -/
def Init.none : Init d R := ⟨.none, .none, fun _ => .none, fun _ => .none⟩

theorem Cfg.opP_congr {ns nr ns' nr' : ℕ} (C : Cfg d ns nr R) (C' : Cfg d ns' nr' R)
    (hV : C.opV = C'.opV) (hL : C.opL = C'.opL) (n : ℕ) :
    C.opP n = C'.opP n ∧ C.opP (n + 1) = C'.opP (n + 1) := by
  induction n with
  | zero => exact ⟨rfl, rfl⟩
  | succ n ih =>
      refine ⟨ih.2, ?_⟩
      have e : C.opP (n + 2) = C.opA * C.opP (n + 1) - C.opP n := rfl
      have e' : C'.opP (n + 2) = C'.opA * C'.opP (n + 1) - C'.opP n := rfl
      rw [e, e', ih.1, ih.2, Cfg.opA, Cfg.opA, hV, hL]

theorem Cfg.trace_response (C : Cfg d 1 1 R) (h : C.WF) (hn : ∀ k x, C.a k x = 0 ∧ C.b k x = 0 ∧ C.db k x = 0)
    {x y : Cell d} (hx : C.src 0 = some x) (hy : C.rcv 0 = some y) (f : ℕ → Fin 1 → R) (t : ℕ) :
    sample C.rcv (C.run (C.scaleSources f) 0 (C.start Init.none) t).u 0 =
      -∑ j ∈ Finset.range t, f j 0 * dot C.S (Pi.single y 1) (C.opP (t - j) (C.opV (Pi.single x 1))) := by
  have hz : (C.start Init.none).u = 0 ∧ (C.start Init.none).p = 0 := ⟨rfl, rfl⟩
  have hyS : y ∈ C.S := Cfg.mem_S.2 (h.rcv_in 0 y hy)
  have hxI : C.Inner x := h.src_in 0 x hx
  have hdot : ∀ w : Fld d R, dot C.S (Pi.single y 1) w = w y := by
    intro w
    rw [dot, Finset.sum_eq_single y]
    · simp
    · intro c _ hc; simp [hc]
    · intro hc; exact absurd hyS hc
  have hinj : ∀ j, inject C.src (C.scaleSources f j) = (-f j 0) • C.opV (Pi.single x 1) := by
    intro j
    funext c
    rw [inject, Fin.sum_univ_one, hx]
    change _ = -f j 0 * (if C.Inner c then _ else _)
    by_cases hc : c = x
    · subst hc
      simp [hxI, Cfg.scaleSources, hx]
      ring
    · have : ¬some x = some c := fun e => hc (Option.some.inj e).symm
      simp [this, hc]
  rw [sample, hy]
  simp only
  rw [(C.run_response h hn _ (C.start_good _) hz.1 hz.2 t).1, ← Finset.sum_neg_distrib,
    Finset.sum_apply]
  refine Finset.sum_congr rfl fun j _ => ?_
  rw [hinj, hdot, map_smul, Pi.smul_apply, smul_eq_mul]
  ring

/-- **C41** Without PML and with no initial wavefields, exchanging the source and the receiver
leaves the recorded trace unchanged, for every velocity model, wavelet and number of steps. -/
theorem C41_reciprocity (C : Cfg d 1 1 R) (h : C.WF) (hn : ∀ k x, C.a k x = 0 ∧ C.b k x = 0 ∧ C.db k x = 0)
    (hr : 0 < C.ratio) {x y : Cell d} (hx : C.src 0 = some x) (hy : C.rcv 0 = some y) (g : Bool)
    (cb : Option ℕ) (nt : ℕ) (hcf : 0 < nt → 0 < cb.getD (nt / C.ratio)) (f : ℕ → Fin 1 → R) :
    ∃ r r', C.forward g cb nt (C.scaleSources f) Init.none = .ok r ∧
      C.exchanged.forward g cb nt (C.exchanged.scaleSources f) Init.none = .ok r' ∧
      r.rcd = r'.rcd := by
  have h' : C.exchanged.WF := { h with src_in := h.rcv_in, rcv_in := h.src_in }
  refine ⟨_, _, C.forward_eq h g cb nt _ _ hr hcf, C.exchanged.forward_eq h' g cb nt _ _ hr hcf, ?_⟩
  funext t i
  obtain rfl : i = 0 := Subsingleton.elim _ _
  simp only
  have e : C.exchanged.ratio = C.ratio := rfl
  rw [e]
  split_ifs
  · rw [C.trace_response h hn hx hy f t, C.exchanged.trace_response h' hn hy hx f t]
    congr 1
    refine Finset.sum_congr rfl fun j _ => ?_
    congr 1
    rw [(C.dot_opP _ _ _).1, dot_comm, (C.exchanged.opP_congr C rfl rfl _).1]
    rfl
  · rfl

/-- A model with variable velocity. -/
example : ∃ C : Cfg 2 1 1 ℚ, C.WF ∧ (∀ k x, C.a k x = 0 ∧ C.b k x = 0 ∧ C.db k x = 0) ∧
    C.src 0 = some ![4, 5] ∧ C.rcv 0 = some ![4, 7] ∧ 0 < C.ratio ∧ C.v ![4, 5] ≠ C.v ![7, 5] := by
  refine ⟨⟨.a2, exN, exCfg.w0, exCfg.w1, exCfg.dx, 1 / 10, fun _ _ => 0, fun _ _ => 0,
      fun _ _ => 0, exCfg.v, fun _ => some ![4, 5], exCfg.rcv, 2⟩,
    { exCfg_wf with
      a_mid := fun _ _ _ => rfl, b_mid := fun _ _ _ => rfl, db_mid := fun _ _ _ _ => rfl
      src_in := fun i c hc => exCfg_wf.src_in 0 c hc }, fun _ _ => ⟨rfl, rfl, rfl⟩, rfl, rfl,
    by decide, ?_⟩
  simp [exCfgOf]

end Dw.Scalar
