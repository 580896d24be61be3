import Verif.Props.UserShots

/-!
# Extents of calls of `scalar_born`, `acoustic` and `elastic`
-/

open Dw.Setup

namespace Dw.Setup

variable {d : ℕ}

theorem ModelT.crop_noElements {m : ModelT d ℝ} {ext : Fin d → ℤ × ℤ} (hlt : ∀ k, (ext k).1 < (ext k).2)
    (h : ¬Scalar.NoElements m) : ¬Scalar.NoElements (m.crop ext) := by
  rintro (h1 | ⟨k, h1⟩)
  · exact h (.inl h1)
  · have := hlt k
    simp only [ModelT.crop] at h1
    omega

/-- The arguments for a model that has been cropped by hand. -/
def Opts.cropped (O : Opts) : Opts := {O with surveyPad := .none, origin := none}

theorem ModelT.Agree.noElements {m m' : ModelT d ℝ} {ext : Fin d → ℤ × ℤ} (ha : m.Agree ext m')
    (h : ¬Scalar.NoElements m) : ¬Scalar.NoElements m' := by
  unfold Scalar.NoElements at h ⊢
  rw [ha.1, ha.2.1]
  exact h

end Dw.Setup

namespace Dw.Born

variable {d : ℕ}

/-- The arguments with the models and the locations restricted to `ext`. -/
def UArgs.crop (A : UArgs d) (ext : Fin d → ℤ × ℤ) : UArgs d :=
  { A with
    v := A.v.crop ext
    scatter := A.scatter.crop ext
    src := A.src.map (LocT.crop ext)
    rcv := A.rcv.map (LocT.crop ext)
    bgRcv := A.bgRcv.map (LocT.crop ext)
    opts := A.opts.cropped }

/-- **C86** The extents that `scalar_born` chooses (see `C15` and `C18`) restrict the computation to that
part of the model: the call with the models cropped by hand gives the same. -/
theorem C86_cropped_by_hand (A : UArgs d) (P : Plan d) (s : ℕ) (r : Option (UShot d))
    (hP : A.setup.plan = .ok P) (hs : s < P.nb)
    (hmv : A.opts.maxVel = none → Scalar.maxAbs (A.v.crop P.ext) = Scalar.maxAbs A.v)
    (hact : (∀ w, some w ∉ A.setup.wfs) ∨ A.setup.Active id P.nb)
    (h : A.born s = .ok r) : (A.crop P.ext).born s = .ok r :=
  call_crop (pre' := Scalar.NoElements (A.v.crop P.ext)) (mv := Scalar.maxAbs (A.v.crop P.ext)) hP hs
    ⟨A.v, List.mem_cons_self⟩ hmv hact (fun hlt h0 => ModelT.crop_noElements hlt h0) h

/-- **C86** With `max_vel` given, the values of the models outside the extents have no effect. -/
theorem C86_model_outside (A : UArgs d) (v' sc' : ModelT d ℝ) (P : Plan d) (s : ℕ) (r : Option (UShot d))
    (hP : A.setup.plan = .ok P) (hs : s < P.nb) (hmv : A.opts.maxVel ≠ none)
    (hv : A.v.Agree P.ext v') (hsc : A.scatter.Agree P.ext sc') (h : A.born s = .ok r) :
    ({A with v := v', scatter := sc'} : UArgs d).born s = .ok r :=
  call_remodel (pre' := Scalar.NoElements v') hP hs ⟨A.v, List.mem_cons_self⟩ hmv
    [(v', .replicate), (sc', .constant)] (Scalar.maxAbs v') (.cons ⟨rfl, hv⟩ (.cons ⟨rfl, hsc⟩ .nil))
    (fun h0 => hv.noElements h0) h

end Dw.Born

namespace Dw.Acoustic

variable {d : ℕ}

/-- The arguments with the models and the locations restricted to `ext`. -/
def UArgs.crop (A : UArgs d) (ext : Fin d → ℤ × ℤ) : UArgs d :=
  { A with
    v := A.v.crop ext
    rho := A.rho.crop ext
    srcP := A.srcP.map (LocT.crop ext)
    srcV := fun k => (A.srcV k).map (LocT.crop ext)
    rcvP := A.rcvP.map (LocT.crop ext)
    rcvV := fun k => (A.rcvV k).map (LocT.crop ext)
    opts := A.opts.cropped }

/-- **C87** The extents that `acoustic` chooses restrict the computation to that part of the model, as for
`scalar_born`, unless a velocity source or receiver of some dimension is in the last cell of the extents in
that dimension. -/
theorem C87_cropped_by_hand_partial (A : UArgs d) (P : Plan d) (s : ℕ) (r : Option (UShot d))
    (hP : A.setup.plan = .ok P) (hs : s < P.nb)
    (hmv : A.opts.maxVel = none → Scalar.maxAbs (A.v.crop P.ext) = Scalar.maxAbs A.v)
    (hact : (∀ w, some w ∉ A.setup.wfs) ∨ A.setup.Active id P.nb)
    (hb : ∀ k l, A.srcV k = some l ∨ A.rcvV k = some l →
      ¬(l.crop P.ext).Beyond k ((P.ext k).2 - (P.ext k).1))
    (h : A.acoustic s = .ok r) : (A.crop P.ext).acoustic s = .ok r := by
  have e : (A.crop P.ext).setup = A.setup.crop P.ext (Scalar.maxAbs (A.v.crop P.ext)) := by
    simp only [UArgs.setup, UArgs.crop, SetupArgs.crop, Opts.setup, List.map_ofFn, List.map_cons,
      List.map_nil, Opts.cropped]
    rfl
  unfold UArgs.acoustic at h ⊢
  rw [e]
  refine call_crop (pre := A.Pre) hP hs ⟨A.v, List.mem_cons_self⟩ hmv hact (fun hlt h0 => ?_) h
  rintro (h1 | ⟨k, l, h1, h2⟩)
  · exact ModelT.crop_noElements hlt (fun h2 => h0 (.inl h2)) h1
  · rcases h1 with h1 | h1
    · obtain ⟨l', hl', rfl⟩ := option_map_eq_some h1
      exact hb k l' (.inl hl') h2
    · obtain ⟨l', hl', rfl⟩ := option_map_eq_some h1
      exact hb k l' (.inr hl') h2

/-- **C86** With `max_vel` given, the values of the models outside the extents have no effect. -/
theorem C86_model_outside (A : UArgs d) (v' rho' : ModelT d ℝ) (P : Plan d) (s : ℕ) (r : Option (UShot d))
    (hP : A.setup.plan = .ok P) (hs : s < P.nb) (hmv : A.opts.maxVel ≠ none)
    (hv : A.v.Agree P.ext v') (hrho : A.rho.Agree P.ext rho') (h : A.acoustic s = .ok r) :
    ({A with v := v', rho := rho'} : UArgs d).acoustic s = .ok r := by
  refine call_remodel (pre := A.Pre) (pre' := ({A with v := v', rho := rho'} : UArgs d).Pre) hP hs
    ⟨A.v, List.mem_cons_self⟩ hmv
    [(v', .replicate), (rho', .replicate)] (Scalar.maxAbs v') (.cons ⟨rfl, hv⟩ (.cons ⟨rfl, hrho⟩ .nil))
    (fun h0 => ?_) h
  rintro (h1 | ⟨k, l, h1, h2⟩)
  · exact hv.noElements (fun h2 => h0 (.inl h2)) h1
  · simp only [hv.2.1] at h2
    exact h0 (.inr ⟨k, l, h1, h2⟩)

end Dw.Acoustic

namespace Dw.Elastic

variable {d : ℕ}

/-- The arguments with the models and the locations restricted to `ext`. -/
def UArgs.crop (A : UArgs d) (ext : Fin d → ℤ × ℤ) : UArgs d :=
  { A with
    lam := A.lam.crop ext
    mu := A.mu.crop ext
    buoyancy := A.buoyancy.crop ext
    srcP := A.srcP.map (LocT.crop ext)
    srcV := fun k => (A.srcV k).map (LocT.crop ext)
    rcvP := A.rcvP.map (LocT.crop ext)
    rcvV := fun k => (A.rcvV k).map (LocT.crop ext)
    opts := A.opts.cropped }

/-- **C87** The same for `elastic`. -/
theorem C87_cropped_by_hand_partial (A : UArgs d) (P : Plan d) (s : ℕ) (r : Option (UShot d))
    (hP : A.setup.plan = .ok P) (hs : s < P.nb)
    (hmv : A.opts.maxVel = none → (A.crop P.ext).maxModelVel = A.maxModelVel)
    (hact : (∀ w, some w ∉ A.setup.wfs) ∨ A.setup.Active id P.nb)
    (hb : ∀ k l, A.srcV k = some l ∨ A.rcvV k = some l →
      ¬(l.crop P.ext).Beyond k ((P.ext k).2 - (P.ext k).1))
    (h : A.elastic s = .ok r) : (A.crop P.ext).elastic s = .ok r := by
  have e : (A.crop P.ext).setup = A.setup.crop P.ext (A.crop P.ext).maxModelVel := by
    simp only [UArgs.setup, UArgs.crop, SetupArgs.crop, Opts.setup, List.map_ofFn, List.map_cons,
      List.map_nil, List.map_append, Opts.cropped]
    rfl
  unfold UArgs.elastic at h ⊢
  rw [e]
  refine call_crop (pre := A.Pre) hP hs ⟨A.lam, List.mem_cons_self⟩ hmv hact (fun hlt h0 => ?_) h
  rintro (⟨k, l, h1, h2⟩ | h1 | h1 | h1)
  · rcases h1 with h1 | h1
    · obtain ⟨l', hl', rfl⟩ := option_map_eq_some h1
      exact hb k l' (.inl hl') h2
    · obtain ⟨l', hl', rfl⟩ := option_map_eq_some h1
      exact hb k l' (.inr hl') h2
  · exact ModelT.crop_noElements hlt (fun h2 => h0 (.inr (.inl h2))) h1
  · exact ModelT.crop_noElements hlt (fun h2 => h0 (.inr (.inr (.inl h2)))) h1
  · exact ModelT.crop_noElements hlt (fun h2 => h0 (.inr (.inr (.inr h2)))) h1

/-- **C86** With `max_vel` given, the values of the models outside the extents have no effect. -/
theorem C86_model_outside (A : UArgs d) (lam' mu' b' : ModelT d ℝ) (P : Plan d) (s : ℕ)
    (r : Option (UShot d)) (hP : A.setup.plan = .ok P) (hs : s < P.nb) (hmv : A.opts.maxVel ≠ none)
    (hl : A.lam.Agree P.ext lam') (hm : A.mu.Agree P.ext mu') (hb : A.buoyancy.Agree P.ext b')
    (h : A.elastic s = .ok r) :
    ({A with lam := lam', mu := mu', buoyancy := b'} : UArgs d).elastic s = .ok r := by
  refine call_remodel (pre := A.Pre)
    (pre' := ({A with lam := lam', mu := mu', buoyancy := b'} : UArgs d).Pre) hP hs
    ⟨A.lam, List.mem_cons_self⟩ hmv
    [(lam', .replicate), (mu', .replicate), (b', .replicate)]
    ({A with lam := lam', mu := mu', buoyancy := b'} : UArgs d).maxModelVel
    (.cons ⟨rfl, hl⟩ (.cons ⟨rfl, hm⟩ (.cons ⟨rfl, hb⟩ .nil))) (fun h0 => ?_) h
  rintro (⟨k, l, h1, h2⟩ | h1 | h1 | h1)
  · simp only [hl.2.1] at h2
    exact h0 (.inl ⟨k, l, h1, h2⟩)
  · exact hl.noElements (fun h2 => h0 (.inr (.inl h2))) h1
  · exact hm.noElements (fun h2 => h0 (.inr (.inr (.inl h2)))) h1
  · exact hb.noElements (fun h2 => h0 (.inr (.inr (.inr h2)))) h1

end Dw.Elastic
