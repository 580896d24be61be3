import Verif.Setup.PropagatorLemmas

/-!
# Setup of a call with some of the shots of another call
-/

namespace Dw.Setup

variable {d : ℕ}

/-! ### The arguments for shots `σ 0, …, σ (nb' - 1)` -/

def LocT.select (σ : ℕ → ℕ) (nb' : ℕ) (l : LocT) : LocT := ⟨nb', l.n, l.nd, fun s => l.val (σ s)⟩
def AmpT.select (σ : ℕ → ℕ) (nb' : ℕ) (a : AmpT) : AmpT := ⟨nb', a.n, a.nt, fun s => a.val (σ s)⟩
def WfT.select (σ : ℕ → ℕ) (nb' : ℕ) (w : WfT d) : WfT d := ⟨nb', w.shape, fun s => w.val (σ s)⟩
def IdxT.select (σ : ℕ → ℕ) (nb' : ℕ) (t : IdxT) : IdxT := ⟨nb', t.n, fun s => t.val (σ s)⟩

/-- A model that is the same for all shots stays as it is. -/
def ModelT.select (σ : ℕ → ℕ) (nb' : ℕ) (m : ModelT d ℝ) : ModelT d ℝ :=
  if m.nb.getD 1 = 1 then m else ⟨some nb', m.shape, fun s => m.val (σ s)⟩

def SetupArgs.select (A : SetupArgs d) (σ : ℕ → ℕ) (nb' : ℕ) (mv : ℝ) : SetupArgs d :=
  { A with
    models := A.models.map fun m => (m.1.select σ nb', m.2)
    amps := A.amps.map (Option.map (AmpT.select σ nb'))
    srcs := A.srcs.map (Option.map (LocT.select σ nb'))
    rcvs := A.rcvs.map (Option.map (LocT.select σ nb'))
    wfs := A.wfs.map (Option.map (WfT.select σ nb'))
    maxModelVel := mv }

def Plan.select (P : Plan d) (σ : ℕ → ℕ) (nb' : ℕ) : Plan d :=
  { P with
    nb := nb'
    models := P.models.map (ModelT.select σ nb')
    srcs := P.srcs.map (IdxT.select σ nb')
    rcvs := P.rcvs.map (IdxT.select σ nb') }

theorem ModelT.select_shape (σ : ℕ → ℕ) (nb' : ℕ) (m : ModelT d ℝ) : (m.select σ nb').shape = m.shape := by
  unfold ModelT.select
  split_ifs <;> rfl

theorem modelOf_select (ext : Fin d → ℤ × ℤ) (pad : List ℤ) (σ : ℕ → ℕ) (nb' : ℕ)
    (m : ModelT d ℝ × PadMode) :
    modelOf ext pad (m.1.select σ nb', m.2) = (modelOf ext pad m).select σ nb' := by
  unfold modelOf ModelT.select
  by_cases h : m.1.nb.getD 1 = 1
  · simp only [h, if_true, Option.getD_some]
  · simp only [h, if_false, Option.getD_some]

theorem idxOpt_select (ext : Fin d → ℤ × ℤ) (p0 p1 : Fin d → ℤ) (nb nb' : ℕ) (σ : ℕ → ℕ) (o : Option LocT) :
    idxOpt ext p0 p1 nb' (o.map (LocT.select σ nb')) = (idxOpt ext p0 p1 nb o).select σ nb' := by
  cases o <;> rfl

theorem mem_map_option {α β : Type} {f : α → β} {l : List (Option α)} {b : β} :
    some b ∈ l.map (Option.map f) ↔ ∃ a, some a ∈ l ∧ b = f a := by
  rw [List.mem_map]
  constructor
  · rintro ⟨o, ho, h⟩
    cases o with
    | none => simp at h
    | some a => exact ⟨a, ho, (Option.some.inj h).symm⟩
  · rintro ⟨a, ha, rfl⟩
    exact ⟨some a, ha, rfl⟩

theorem LocT.active_select {l : LocT} {σ : ℕ → ℕ} {nb' : ℕ} (hσ : ∀ s < nb', σ s < l.nb) {k : ℕ} {x : ℚ}
    (hx : x ∈ (l.select σ nb').active k) : x ∈ l.active k := by
  rw [LocT.mem_active] at hx ⊢
  obtain ⟨s, hs, i, hi, h⟩ := hx
  exact ⟨σ s, hσ s hs, i, hi, h⟩

/-- If the setup accepts a call, then, without `survey_pad`, it accepts the call with any of its shots and
computes the same for each of them. -/
theorem SetupArgs.Good.select {A : SetupArgs d} {P : Plan d} (h : A.Good P) {σ : ℕ → ℕ} {nb' : ℕ} {mv : ℝ}
    (hnb : 0 < nb') (hσ : ∀ s < nb', σ s < P.nb) (hsp : A.surveyPad = .none)
    (hmv : A.maxVel = none → mv = A.maxModelVel)
    (hact : (∃ w, some w ∈ A.wfs) → ∀ l, some l ∈ A.srcs ++ A.rcvs → ∀ k < l.nd,
      (l.select σ nb').active k ≠ []) :
    (A.select σ nb' mv).Good (P.select σ nb') := by
  have hP : 0 < P.nb := (Nat.zero_le _).trans_lt (hσ 0 hnb)
  have hsrc := extractLocations_iff.1 h.srcs
  have hrcv := extractLocations_iff.1 h.rcvs
  have hmod := (extractModels_iff hP).1 h.models
  have hshape : (A.select σ nb' mv).shape = A.shape := by
    simp only [SetupArgs.shape, SetupArgs.select]
    cases A.models with
    | nil => rfl
    | cons m ms => exact m.1.select_shape σ nb'
  have hbl : ∀ l, some l ∈ A.srcs ++ A.rcvs → l.nb = P.nb := fun l hl => by
    rcases List.mem_append.1 hl with hl | hl
    · exact (hsrc.1 l hl).batch
    · exact (hrcv.1 l hl).batch
  have hwfs : (A.select σ nb' mv).wfs.map (Option.map WfT.shape) = A.wfs.map (Option.map WfT.shape) := by
    simp only [SetupArgs.select, List.map_map]
    refine List.map_congr_left fun o _ => ?_
    cases o <;> rfl
  have hlg : ∀ {l : LocT} {p0 p1 : Fin d → ℤ}, LocGood A.eps P.ext p0 p1 P.nb l →
      LocGood A.eps P.ext p0 p1 nb' (l.select σ nb') := fun {l p0 p1} g =>
    ⟨fun s hs i hi k hk => g.close (σ s) (by rw [g.batch]; exact hσ s hs) i hi k hk, rfl, g.nd,
      fun s hs => g.nodup (σ s) (hσ s hs)⟩
  exact
    { nb := getNBatch_select h.nb
        (by simp only [SetupArgs.select, List.map_map]
            exact List.map_congr_left fun o _ => by cases o <;> rfl)
        (by simp only [SetupArgs.select, List.map_map]
            exact List.map_congr_left fun o _ => by cases o <;> rfl)
        (fun l hl => by obtain ⟨_, _, rfl⟩ := mem_map_option.1 hl; rfl)
        (fun l hl => by obtain ⟨_, _, rfl⟩ := mem_map_option.1 hl; rfl)
      dx := h.dx
      maxVel := by
        have := h.maxVel
        unfold setMaxVelR at this ⊢
        simp only [SetupArgs.select]
        cases hm : A.maxVel with
        | none => rw [hm] at this; rw [hmv hm]; exact this
        | some x => rw [hm] at this; exact this
      cfl := h.cfl
      acc := h.acc
      width := h.width
      freq := h.freq
      nt := by
        have : (A.select σ nb' mv).amps.map (Option.map AmpT.nt) = A.amps.map (Option.map AmpT.nt) := by
          simp only [SetupArgs.select, List.map_map]
          exact List.map_congr_left fun o _ => by cases o <;> rfl
        rw [this]
        exact h.nt
      interval := h.interval
      ff := h.ff
      tf := h.tf
      ampsMatch := by
        have e1 : (A.select σ nb' mv).amps.map (Option.map AmpT.n) = A.amps.map (Option.map AmpT.n) := by
          simp only [SetupArgs.select, List.map_map]
          exact List.map_congr_left fun o _ => by cases o <;> rfl
        have e2 : (A.select σ nb' mv).srcs.map (Option.map LocT.n) = A.srcs.map (Option.map LocT.n) := by
          simp only [SetupArgs.select, List.map_map]
          exact List.map_congr_left fun o _ => by cases o <;> rfl
        rw [e1, e2]
        exact h.ampsMatch
      amps := checkAmps_ok.2 fun a ha => by
        obtain ⟨b, hb, rfl⟩ := mem_map_option.1 ha
        obtain ⟨-, h2, h3⟩ := checkAmps_ok.1 h.amps b hb
        exact ⟨rfl, h2, h3⟩
      ext := by
        have he := h.ext
        have hlocs : (A.select σ nb' mv).srcs ++ (A.select σ nb' mv).rcvs =
            (A.srcs ++ A.rcvs).map (Option.map (LocT.select σ nb')) := by
          simp only [SetupArgs.select, List.map_append]
        rw [hsp, surveyExtents_none] at he
        rw [hshape, hlocs, hwfs, show (A.select σ nb' mv).surveyPad = SurveyPad.none from hsp]
        refine surveyExtents_none.2 ⟨?_, ?_⟩
        · rw [checkLocationsWithinModel_iff] at he ⊢
          refine ⟨he.1.1, fun l hl k => ?_⟩
          obtain ⟨l, hl', rfl⟩ := mem_map_option.1 hl
          replace hl := hl'
          exact ⟨(he.1.2 l hl k).1, fun x hx => (he.1.2 l hl k).2 x
            (l.active_select (fun s hs => by rw [hbl l hl]; exact hσ s hs) hx)⟩
        · have he2 := he.2
          split_ifs at he2 ⊢ with hw
          · refine ⟨he2.1, he2.2.1, ?_⟩
            have hl3 := checkLocationsWithinExtents_iff.1 he2.2.2
            refine checkLocationsWithinExtents_iff.2 fun l hl k hk => ?_
            obtain ⟨l, hl', rfl⟩ := mem_map_option.1 hl
            replace hl := hl'
            obtain ⟨-, hkd, h5⟩ := hl3 l hl k hk
            have hw' : ∃ w, some w ∈ A.wfs := by
              obtain ⟨o, ho, hs⟩ := List.any_eq_true.1 hw
              obtain ⟨o', ho', rfl⟩ := List.mem_map.1 ho
              cases o' with
              | none => simp at hs
              | some w => exact ⟨w, ho'⟩
            exact ⟨hact hw' l hl k hk, hkd, fun x hx => h5 x
              (l.active_select (fun s hs => by rw [hbl l hl]; exact hσ s hs) hx)⟩
          · exact he2
      models := by
        refine (extractModels_iff hnb).2 ⟨fun m hm => ?_, ?_⟩
        · obtain ⟨m, hm', rfl⟩ := List.mem_map.1 hm
          replace hm := hm'
          have g := hmod.1 m hm
          refine ⟨by rw [hshape, m.1.select_shape]; exact g.shape, ?_, fun hr k => ?_⟩
          · simp only [ModelT.select]
            split_ifs with h1
            · exact .inl h1
            · exact .inr rfl
          · rw [m.1.select_shape]
            exact g.box hr k
        · simp only [Plan.select, SetupArgs.select, hmod.2, List.map_map]
          refine List.map_congr_left fun m _ => ?_
          exact (modelOf_select _ _ _ _ m).symm
      srcs := by
        refine extractLocations_iff.2 ⟨fun l hl => ?_, ?_⟩
        · obtain ⟨l, hl', rfl⟩ := mem_map_option.1 hl
          exact hlg (hsrc.1 l hl')
        · simp only [Plan.select, SetupArgs.select, hsrc.2, List.map_map]
          refine List.map_congr_left fun o _ => ?_
          exact (idxOpt_select _ _ _ _ _ _ o).symm
      rcvs := by
        refine extractLocations_iff.2 ⟨fun l hl => ?_, ?_⟩
        · obtain ⟨l, hl', rfl⟩ := mem_map_option.1 hl
          exact hlg (hrcv.1 l hl')
        · simp only [Plan.select, SetupArgs.select, hrcv.2, List.map_map]
          refine List.map_congr_left fun o _ => ?_
          exact (idxOpt_select _ _ _ _ _ _ o).symm
      wfs := prepareWavefields_ok.2 fun w hw => by
        obtain ⟨v, hv, rfl⟩ := mem_map_option.1 hw
        obtain ⟨-, h2⟩ := prepareWavefields_ok.1 h.wfs v hv
        exact ⟨rfl, h2⟩ }

end Dw.Setup
