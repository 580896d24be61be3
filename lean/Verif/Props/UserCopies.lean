import Verif.Props.UserNear
import Verif.Props.UserScatter

/-!
# C132: a model is the same as its copies for every shot

A model without a batch dimension, or with one of size one, is used for all shots; giving one copy for each shot makes no
difference to the outputs of any shot, to callbacks, or to the maximum velocity, and so to the time step and the PML.
-/

namespace Dw.Setup

open Scalar (maxAbs NoElements)

variable {d : ℕ}

/-- `n` copies of a model: `m.expand(n, ...)`. -/
def ModelT.copies (n : ℕ) (m : ModelT d ℝ) : ModelT d ℝ := ⟨some n, m.shape, fun s => m.shot s⟩

/-- Models that have the same values for each of `nb` shots, the second with a batch dimension of size one or `nb`. -/
structure ModelT.SameShots (nb : ℕ) (m m' : ModelT d ℝ) : Prop where
  shape : m'.shape = m.shape
  batch : m'.nb.getD 1 = 1 ∨ m'.nb.getD 1 = nb
  shot : ∀ s < nb, m'.shot s = m.shot s

theorem ModelT.SameShots.refl {nb : ℕ} {m : ModelT d ℝ} (h : m.nb.getD 1 = 1 ∨ m.nb.getD 1 = nb) : m.SameShots nb m :=
  ⟨rfl, h, fun _ _ => rfl⟩

theorem ModelT.copies_same {n : ℕ} (m : ModelT d ℝ) : m.SameShots n (m.copies n) := by
  refine ⟨rfl, Or.inr rfl, fun s hs => ?_⟩
  show m.shot (if n = 1 then 0 else s) = m.shot s
  split_ifs with h
  · rw [show s = 0 by omega]
  · rfl

/-- The values of an accepted model, by shots. -/
theorem ModelT.values {nb : ℕ} (hnb : 0 < nb) {m : ModelT d ℝ} (h : m.nb.getD 1 = 1 ∨ m.nb.getD 1 = nb) (p : Fld d ℝ → Prop) :
    (∃ s < m.nb.getD 1, p (m.val s)) ↔ ∃ s < nb, p (m.shot s) := by
  unfold ModelT.shot
  by_cases h1 : m.nb.getD 1 = 1
  · simp only [h1, if_true]
    exact ⟨fun ⟨s, hs, hp⟩ => ⟨0, hnb, by rwa [show s = 0 by omega] at hp⟩, fun ⟨_, _, hp⟩ => ⟨0, Nat.one_pos, hp⟩⟩
  · simp only [if_neg h1]
    rw [h.resolve_left h1]

theorem ModelT.SameShots.maxAbs {nb : ℕ} (hnb : 0 < nb) {m m' : ModelT d ℝ} (hm : m.nb.getD 1 = 1 ∨ m.nb.getD 1 = nb)
    (h : m.SameShots nb m') : Scalar.maxAbs m' = Scalar.maxAbs m := by
  unfold Scalar.maxAbs
  congr 1
  ext x
  show (∃ s < m'.nb.getD 1, ∃ c, InShape m'.shape c ∧ x = |m'.val s c|) ↔ ∃ s < m.nb.getD 1, ∃ c, InShape m.shape c ∧ x = |m.val s c|
  rw [ModelT.values hnb h.batch fun f => ∃ c, InShape m'.shape c ∧ x = |f c|,
    ModelT.values hnb hm fun f => ∃ c, InShape m.shape c ∧ x = |f c|, h.shape]
  exact exists_congr fun s => and_congr_right fun hs => by rw [h.shot s hs]

theorem ModelT.SameShots.noElements {nb : ℕ} (hnb : 0 < nb) {m m' : ModelT d ℝ} (hm : m.nb.getD 1 = 1 ∨ m.nb.getD 1 = nb)
    (h : m.SameShots nb m') : NoElements m' ↔ NoElements m := by
  unfold NoElements
  rw [h.shape]
  refine or_congr_left (iff_of_false ?_ ?_)
  · rcases h.batch with e | e <;> omega
  · rcases hm with e | e <;> omega

/-- The part of a model that is used, for a shot. -/
theorem modelOf_shot (ext : Fin d → ℤ × ℤ) (pad : List ℤ) (m : ModelT d ℝ × PadMode) (s : ℕ) :
    (modelOf ext pad m).shot s = fPad m.2 (reversePad pad) (fun k => sliceLen (ext k).1 (ext k).2 (m.1.shape k))
      fun c => m.1.shot s fun k => c k + (ext k).1 := rfl

theorem ModelT.SameShots.modelOf {nb : ℕ} {m m' : ModelT d ℝ} (h : m.SameShots nb m') (ext : Fin d → ℤ × ℤ) (pad : List ℤ)
    (pm : PadMode) {s : ℕ} (hs : s < nb) : (modelOf ext pad (m', pm)).shot s = (Setup.modelOf ext pad (m, pm)).shot s := by
  simp only [modelOf_shot, h.shot s hs, h.shape]

/-- Lists of such models with the same ways of padding. -/
abbrev SameModels (nb : ℕ) : List (ModelT d ℝ × PadMode) → List (ModelT d ℝ × PadMode) → Prop :=
  List.Forall₂ fun m m' => m.1.SameShots nb m'.1 ∧ m'.2 = m.2

variable {A : SetupArgs d} {P : Plan d}

theorem SetupArgs.Good.batch (h : A.Good P) (hnb : 0 < P.nb) {m : ModelT d ℝ × PadMode} (hm : m ∈ A.models) :
    m.1.nb.getD 1 = 1 ∨ m.1.nb.getD 1 = P.nb := (((extractModels_iff hnb).1 h.models).1 m hm).batch

/-- The plan with such models. -/
theorem SetupArgs.Good.sameModels (h : A.Good P) (hnb : 0 < P.nb) {ms : List (ModelT d ℝ × PadMode)} {mv : ℝ}
    (hs : SameModels P.nb A.models ms) (hv : mv = A.maxModelVel) :
    ({A with models := ms, maxModelVel := mv} : SetupArgs d).Good (P.withModels A.staggered ms) := by
  subst hv
  have hshape : ({A with models := ms} : SetupArgs d).shape = A.shape := by
    unfold SetupArgs.shape
    simp only
    generalize A.models = l at hs
    cases hs with
    | nil => rfl
    | cons a _ => exact a.1.shape
  exact
  { nb := h.nb, dx := h.dx, maxVel := h.maxVel, cfl := h.cfl, acc := h.acc, width := h.width, freq := h.freq
    nt := h.nt, interval := h.interval, ff := h.ff, tf := h.tf, ampsMatch := h.ampsMatch, amps := h.amps
    ext := by
      rw [hshape]
      exact h.ext
    models := by
      rw [hshape]
      refine (extractModels_iff hnb).2 ⟨fun m hm => ?_, rfl⟩
      obtain ⟨i, hi, rfl⟩ := List.getElem_of_mem hm
      have hi' : i < A.models.length := by rw [hs.length_eq]; exact hi
      have e := hs.get hi' hi
      have hg := ((extractModels_iff hnb).1 h.models).1 _ (List.getElem_mem hi')
      refine ⟨e.1.shape.trans hg.shape, e.1.batch, fun hm k => ?_⟩
      exact (congrArg (fun f => 0 < sliceLen (P.ext k).1 (P.ext k).2 (f k)) e.1.shape).mpr (hg.box (e.2.symm.trans hm) k)
    srcs := h.srcs, rcvs := h.rcvs, wfs := h.wfs }

theorem SameModels.shots (h : A.Good P) (hnb : 0 < P.nb) {ms : List (ModelT d ℝ × PadMode)}
    (hs : SameModels P.nb A.models ms) {s : ℕ} (hlt : s < P.nb) :
    (P.withModels A.staggered ms).models.map (fun m => m.shot s) = P.models.map fun m => m.shot s := by
  rw [((extractModels_iff hnb).1 h.models).2]
  show (ms.map _).map _ = _
  rw [List.map_map, List.map_map]
  have : ∀ {l l' : List (ModelT d ℝ × PadMode)}, SameModels P.nb l l' →
      l'.map ((fun m => m.shot s) ∘ modelOf P.ext (P.padding A.staggered)) =
      l.map ((fun m => m.shot s) ∘ modelOf P.ext (P.padding A.staggered)) := by
    intro l l' h
    induction h with
    | nil => rfl
    | @cons a b l l' hab _ ih =>
      rw [List.map_cons, List.map_cons, ih]
      obtain ⟨b, pm⟩ := b
      obtain ⟨a, pm'⟩ := a
      obtain ⟨h1, rfl⟩ := hab
      exact congrArg (· :: _) (h1.modelOf _ _ _ hlt)
  exact this hs

/-- Calls with such models give the same results. -/
theorem call_sameModels {α : Type} (h : A.Good P) {s : ℕ} (hlt : s < P.nb) {ms : List (ModelT d ℝ × PadMode)} {mv : ℝ}
    (hs : SameModels P.nb A.models ms) (hv : mv = A.maxModelVel) {pre pre' : Prop} (hp : pre' ↔ pre) (tt : Bool) (cfq : PyNum)
    {run run' : ℤ → ShotIn d → Except PyErr α} (hr : run' = run) :
    call pre' {A with models := ms, maxModelVel := mv} tt cfq run' s = call pre A tt cfq run s := by
  have hnb : 0 < P.nb := by omega
  subst hr
  obtain rfl : pre' = pre := propext hp
  unfold call
  rw [plan_ok.2 h, plan_ok.2 (h.sameModels hnb hs hv)]
  have : shotIn {A with models := ms, maxModelVel := mv} (P.withModels A.staggered ms) tt s = shotIn A P tt s := by
    unfold shotIn
    rw [SameModels.shots h hnb hs hlt]
    rfl
  simp only [this, bind, Except.bind]

end Dw.Setup

namespace Dw.Scalar

open Setup

variable {d : ℕ}

/-- **C132** Only the values of the velocity for each shot matter for `scalar`: a velocity and its copies for each shot give
the same results. -/
theorem C132_scalar_copies (A : UArgs d) (P : Plan d) (s : ℕ) (hP : A.setup.plan = .ok P) (hlt : s < P.nb) (v : ModelT d ℝ)
    (hv : A.v.SameShots P.nb v) : ({A with v := v} : UArgs d).scalar s = A.scalar s := by
  have h := plan_ok.1 hP
  have hnb : 0 < P.nb := by omega
  have hb : A.v.nb.getD 1 = 1 ∨ A.v.nb.getD 1 = P.nb := h.batch hnb (m := (A.v, .replicate)) (List.mem_singleton.2 rfl)
  have hs : SameModels P.nb A.setup.models [(v, .replicate)] := .cons ⟨hv, rfl⟩ .nil
  have hg : ({A with v := v} : UArgs d).setup.Good (P.withModels false [(v, .replicate)]) :=
    h.sameModels hnb hs (hv.maxAbs hnb hb)
  have e : shotModel (P.withModels false [(v, .replicate)]).models 0 s = shotModel P.models 0 s := by
    have hm := ((extractModels_iff hnb).1 h.models).2
    rw [hm]
    exact hv.modelOf _ _ _ hlt
  have hc : ∀ ns nr, cfg ns nr (P.withModels false [(v, .replicate)]) s = cfg ns nr P s := by
    intro ns nr
    unfold cfg
    rw [e]
    rfl
  unfold UArgs.scalar
  rw [plan_ok.2 hg, hP, propext (hv.noElements hnb hb)]
  have : ∀ cf ns nr, ({A with v := v} : UArgs d).shot (P.withModels false [(v, .replicate)]) cf ns nr s = A.shot P cf ns nr s := by
    intro cf ns nr
    unfold UArgs.shot
    rw [hc]
    rfl
  exact congrArg _ (funext fun _ => congrArg _ (funext fun cf => this cf _ _))

/-- For both shots of the call of `exU_fwd` and two copies of its velocity. -/
example (s : ℕ) (hs : s < 2) : ({exU .none with v := (exU .none).v.copies 2} : UArgs 2).scalar s = (exU .none).scalar s :=
  C132_scalar_copies _ _ s (plan_ok.2 (exU_fwd s hs).good) hs _ (ModelT.copies_same _)

end Dw.Scalar

namespace Dw.Born

open Setup
open Scalar (maxAbs NoElements)

variable {d : ℕ}

/-- **C132** for `scalar_born`. -/
theorem C132_born_copies (A : UArgs d) (P : Plan d) (s : ℕ) (hP : A.setup.plan = .ok P) (hlt : s < P.nb) (v scatter : ModelT d ℝ)
    (hv : A.v.SameShots P.nb v) (hs : A.scatter.SameShots P.nb scatter) :
    ({A with v := v, scatter := scatter} : UArgs d).born s = A.born s := by
  have h := plan_ok.1 hP
  have hnb : 0 < P.nb := by omega
  have hb : A.v.nb.getD 1 = 1 ∨ A.v.nb.getD 1 = P.nb := h.batch hnb (m := (A.v, .replicate)) List.mem_cons_self
  have hs' : SameModels P.nb A.setup.models [(v, .replicate), (scatter, .constant)] := .cons ⟨hv, rfl⟩ (.cons ⟨hs, rfl⟩ .nil)
  have hr : ({A with v := v, scatter := scatter} : UArgs d).run (A.wf.init s) (A.wfsc.init s) =
      A.run (A.wf.init s) (A.wfsc.init s) := by
    unfold UArgs.run runWith
    rfl
  have key := call_sameModels h hlt hs' (hv.maxAbs hnb hb) (hv.noElements hnb hb) A.opts.timeTaper A.opts.callbackFreq hr
  unfold UArgs.born
  exact key

/-- For both shots of the call of `exU_fwd` and two copies of its models. -/
example (s : ℕ) (hs : s < 2) : ({exU .none with v := (exU .none).v.copies 2, scatter := (exU .none).scatter.copies 2} : UArgs 2).born s =
    (exU .none).born s :=
  C132_born_copies _ _ s (plan_ok.2 (exU_fwd s hs).good) hs _ _ (ModelT.copies_same _) (ModelT.copies_same _)

end Dw.Born

namespace Dw.Acoustic

open Setup
open Scalar (maxAbs NoElements)

variable {d : ℕ}

/-- **C132** for `acoustic`. -/
theorem C132_acoustic_copies (A : UArgs d) (P : Plan d) (s : ℕ) (hP : A.setup.plan = .ok P) (hlt : s < P.nb) (v rho : ModelT d ℝ)
    (hv : A.v.SameShots P.nb v) (hr : A.rho.SameShots P.nb rho) :
    ({A with v := v, rho := rho} : UArgs d).acoustic s = A.acoustic s := by
  have h := plan_ok.1 hP
  have hnb : 0 < P.nb := by omega
  have hb : A.v.nb.getD 1 = 1 ∨ A.v.nb.getD 1 = P.nb := h.batch hnb (m := (A.v, .replicate)) List.mem_cons_self
  have hs : SameModels P.nb A.setup.models [(v, .replicate), (rho, .replicate)] := .cons ⟨hv, rfl⟩ (.cons ⟨hr, rfl⟩ .nil)
  have hrun : ({A with v := v, rho := rho} : UArgs d).run (A.wf.init s) = A.run (A.wf.init s) := by
    unfold UArgs.run runWith
    rfl
  have hpre : ({A with v := v, rho := rho} : UArgs d).Pre ↔ A.Pre := by
    unfold UArgs.Pre
    simp only [hv.noElements hnb hb, hv.shape]
  have key := call_sameModels h hlt hs (hv.maxAbs hnb hb) hpre A.opts.timeTaper A.opts.callbackFreq hrun
  unfold UArgs.acoustic
  exact key

/-- For both shots of the call of `exU_fwd` and two copies of its models. -/
example (s : ℕ) (hs : s < 2) : ({exU .none with v := (exU .none).v.copies 2, rho := (exU .none).rho.copies 2} : UArgs 2).acoustic s =
    (exU .none).acoustic s :=
  C132_acoustic_copies _ _ s (plan_ok.2 (exU_fwd s hs).good) hs _ _ (ModelT.copies_same _) (ModelT.copies_same _)

end Dw.Acoustic

namespace Dw.Elastic

open Setup
open Scalar (maxAbs NoElements)

variable {d : ℕ}

/-- The maximum velocity, by shots. -/
theorem maxModelVel_shots {A : UArgs d} {nb : ℕ} (hnb : 0 < nb) (hl : A.lam.nb.getD 1 = 1 ∨ A.lam.nb.getD 1 = nb)
    (hm : A.mu.nb.getD 1 = 1 ∨ A.mu.nb.getD 1 = nb) (hb : A.buoyancy.nb.getD 1 = 1 ∨ A.buoyancy.nb.getD 1 = nb) :
    A.maxModelVel = sSup {x | ∃ s c, s < nb ∧ InShape A.lam.shape c ∧
      (x = |(fromLamb (A.lam.shot s c) (A.mu.shot s c) (A.buoyancy.shot s c) 0).1| ∨
        x = |(fromLamb (A.lam.shot s c) (A.mu.shot s c) (A.buoyancy.shot s c) 0).2.1|)} := by
  unfold UArgs.maxModelVel
  by_cases h1 : A.lam.nb.getD 1 = 1 ∧ A.mu.nb.getD 1 = 1 ∧ A.buoyancy.nb.getD 1 = 1
  · congr 1
    ext x
    simp only [ModelT.shot, h1, if_true, max_self, Set.mem_ofPred_eq]
    exact ⟨fun ⟨_, c, _, hc⟩ => ⟨0, c, hnb, hc⟩, fun ⟨_, c, _, hc⟩ => ⟨0, c, Nat.one_pos, hc⟩⟩
  · have : max (A.lam.nb.getD 1) (max (A.mu.nb.getD 1) (A.buoyancy.nb.getD 1)) = nb := by
      rw [not_and_or, not_and_or] at h1
      omega
    rw [this]

/-- **C132** for `elastic`. -/
theorem C132_elastic_copies (A : UArgs d) (P : Plan d) (s : ℕ) (hP : A.setup.plan = .ok P) (hlt : s < P.nb)
    (lam mu buoyancy : ModelT d ℝ) (hl : A.lam.SameShots P.nb lam) (hm : A.mu.SameShots P.nb mu)
    (hb : A.buoyancy.SameShots P.nb buoyancy) :
    ({A with lam := lam, mu := mu, buoyancy := buoyancy} : UArgs d).elastic s = A.elastic s := by
  have h := plan_ok.1 hP
  have hnb : 0 < P.nb := by omega
  have el : A.lam.nb.getD 1 = 1 ∨ A.lam.nb.getD 1 = P.nb := h.batch hnb (m := (A.lam, .replicate)) List.mem_cons_self
  have em : A.mu.nb.getD 1 = 1 ∨ A.mu.nb.getD 1 = P.nb :=
    h.batch hnb (m := (A.mu, .replicate)) (List.mem_cons_of_mem _ List.mem_cons_self)
  have eb : A.buoyancy.nb.getD 1 = 1 ∨ A.buoyancy.nb.getD 1 = P.nb :=
    h.batch hnb (m := (A.buoyancy, .replicate)) (List.mem_cons_of_mem _ (List.mem_cons_of_mem _ List.mem_cons_self))
  have hs : SameModels P.nb A.setup.models [(lam, .replicate), (mu, .replicate), (buoyancy, .replicate)] :=
    .cons ⟨hl, rfl⟩ (.cons ⟨hm, rfl⟩ (.cons ⟨hb, rfl⟩ .nil))
  have hrun : ({A with lam := lam, mu := mu, buoyancy := buoyancy} : UArgs d).run (A.wf.init s) = A.run (A.wf.init s) := by
    unfold UArgs.run runWith
    rfl
  have hpre : ({A with lam := lam, mu := mu, buoyancy := buoyancy} : UArgs d).Pre ↔ A.Pre := by
    unfold UArgs.Pre
    simp only [hl.noElements hnb el, hm.noElements hnb em, hb.noElements hnb eb, hl.shape]
  have hmax : ({A with lam := lam, mu := mu, buoyancy := buoyancy} : UArgs d).maxModelVel = A.setup.maxModelVel := by
    rw [maxModelVel_shots (A := {A with lam := lam, mu := mu, buoyancy := buoyancy}) hnb hl.batch hm.batch hb.batch]
    show _ = A.maxModelVel
    rw [maxModelVel_shots hnb el em eb]
    congr 1
    ext x
    refine exists_congr fun t => exists_congr fun c => and_congr_right fun ht => ?_
    show InShape lam.shape c ∧ _ ↔ _
    simp only [hl.shot t ht, hm.shot t ht, hb.shot t ht, hl.shape]
  have key := call_sameModels h hlt hs hmax hpre A.opts.timeTaper A.opts.callbackFreq hrun
  unfold UArgs.elastic
  exact key

/-- For both shots of the call of `exU_fwd` and two copies of its models. -/
example (s : ℕ) (hs : s < 2) :
    ({ exU .none with
      lam := (exU .none).lam.copies 2, mu := (exU .none).mu.copies 2
      buoyancy := (exU .none).buoyancy.copies 2 } : UArgs 2).elastic s = (exU .none).elastic s :=
  C132_elastic_copies _ _ s (plan_ok.2 (exU_fwd s hs).good) hs _ _ _ (ModelT.copies_same _) (ModelT.copies_same _)
    (ModelT.copies_same _)

end Dw.Elastic
