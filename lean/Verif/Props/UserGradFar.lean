import Verif.Props.UserGradCausal
import Verif.Props.UserGradNear

/-!
# C143: gradients of sources that no receiver sees are zero
-/

namespace Dw.Setup

open Scalar Resample

variable {d : ℕ}

/-- Cell `c` is at most `n` cells away from one of the receivers `o` of shot `s`. -/
def SeenBy (o : Option LocT) (s : ℕ) (n : ℤ) (c : Cell d) : Prop :=
  ∃ i < locCount o, ∃ c₀, locCell o s i = some c₀ ∧ Spec.Near c₀ n c

theorem near_plus {o : Option LocT} {s : ℕ} {c₀ : Cell d} {n : ℤ} (a : Option AmpT) {δ : ℕ → ℕ → ℕ → ℝ}
    (h : ∀ i c, locCell o s i = some c → Spec.Near c₀ n c → δ s i = fun _ => 0) :
    Option.Rel (AmpT.SameNear o s c₀ n) a (a.map fun a => plusAmp 1 a δ) := by
  cases a with
  | none => exact .none
  | some a =>
      refine .some ⟨rfl, fun i c hc hn => funext fun t => ?_⟩
      simp [plusAmp, h i c hc hn]

theorem sameNear_refl (m : ModelT d ℝ) (s : ℕ) (c₀ : Cell d) (n : ℤ) : m.SameNear s c₀ n m :=
  ⟨rfl, rfl, fun _ _ _ => rfl⟩

theorem ampBump_far {o o' : Option LocT} {s i t : ℕ} {n : ℤ} {c₀ : Cell d} {r : ℕ} (hr : r < locCount o')
    (hc₀ : locCell o' s r = some c₀) (h : ∀ c : Cell d, locCell o s i = some c → ¬SeenBy o' s n c) (j : ℕ) (c : Cell d)
    (hc : locCell o s j = some c) (hn : Spec.Near c₀ n c) : ampBump s i t s j = fun _ => 0 := by
  have : j ≠ i := fun e => h c (e ▸ hc) ⟨r, hr, c₀, hc₀, hn⟩
  funext t'
  simp [ampBump, this]

theorem bump_unseen {S : Cell d → Prop} {o : Option LocT} {s i t : ℕ} (h : ∀ c : Cell d, locCell o s i = some c → ¬S c) (j : ℕ)
    (c : Cell d) (hc : locCell o s j = some c) (hn : S c) : ampBump s i t s j = fun _ => 0 := by
  have : j ≠ i := fun e => h c (e ▸ hc) hn
  funext t'
  simp [ampBump, this]

theorem locValue_none {o : Option LocT} {s i : ℕ} (h : locCell (d := d) o s i = none) (f : Fld d ℝ) : locValue o s i f = 0 := by
  unfold locValue
  rw [h]

/-- Traces of a receiver that is ignored. -/
theorem traces_none {A A' : SetupArgs d} {P : Plan d} (h : A.Good P) (h' : A'.Good P) (h1 : P.ratio = 1) {tt : Bool}
    {o : Option LocT} {s i : ℕ} (hn : locCell (d := d) o s i = none) {x x' : ℕ → Fld d ℝ} {N t : ℕ} :
    (downS P tt ⟨P.nt.toNat, fun t => if t < N then locValue o s i (x' t) else 0⟩).val t =
      (downS P tt ⟨P.nt.toNat, fun t => if t < N then locValue o s i (x t) else 0⟩).val t :=
  traces_to h h' h1 (by rw [locValue_none hn, locValue_none hn])

theorem exFar_locs {l : LocT} (hl : l = exAt 1 1 ∨ l = exAt 5 7) {st : Bool} :
    LocGood (1 / 10) ![(0, 7), (0, 9)] (padBegin (d := 2) 4 [0, 0, 0, 0]) (padEnd st 4 [0, 0, 0, 0]) 2 l ∧
      Scalar.WholeIgnored 2 l 1 ∧ ∀ k : Fin 2, ¬l.Beyond k ((![7, 9] : Fin 2 → ℤ) k) := by
  rcases hl with rfl | rfl
  all_goals
    refine ⟨locGood0 (by decide) rfl rfl (by decide +kernel) (by unfold LocT.Duplicates LocT.Ignored; decide +kernel)
      (by unfold LocT.Ignored LocT.Inside; decide +kernel), ?_, ?_⟩
    · unfold Scalar.WholeIgnored LocT.Ignored
      decide +kernel
    · unfold LocT.Beyond
      decide +kernel

theorem exFar_unseen {n : ℤ} (hn : n ≤ 4) (c : Cell 2) (hc : locCell (some (exAt 1 1)) 1 0 = some c) :
    ¬SeenBy (some (exAt 5 7)) 1 n c := by
  rintro ⟨i, hi, c₀, hc₀, h⟩
  obtain rfl : i = 0 := Nat.lt_one_iff.1 hi
  obtain rfl := Option.some.inj ((Elastic.exAt_cell (by decide +kernel)).symm.trans hc₀)
  obtain rfl := Option.some.inj ((Elastic.exAt_cell (by decide +kernel)).symm.trans hc)
  exact absurd ((h.mono hn) 1) (by decide +kernel)

end Dw.Setup

namespace Dw.Scalar

open Setup Resample

variable {d : ℕ}

/-- **C143** If the given gradients of the traces are zero after sample `T`, the gradients of the amplitudes of sources
of `scalar` that are more than `T` times half the accuracy away from all receivers are zero. -/
theorem C143_scalar_sources (A : UArgs d) (P : Plan d) (s : ℕ) (cf : ℤ) (h : Fwd A P s cf) (h1 : P.ratio = 1) (bcb : Bool)
    (gr : ℕ → ℕ → ℝ) (T : ℕ) (hT : ∀ i t, T < t → gr i t = 0) (hnt : P.ratio * P.interval ≤ P.nt ∨ P.nt ≤ 0) :
    ∃ b, A.backward s bcb gr (Wavefields.zero d) = .ok (some b) ∧ ∀ q, A.amps = some q → ∀ i < q.n,
      (∀ c : Cell d, locCell A.src s i = some c → ¬SeenBy A.rcv s ((P.acc.order / 2 : ℕ) * T) c) →
        ∀ t < q.nt, b.amps i t = 0 := by
  obtain ⟨-, b, -, hb, -⟩ := C95_source_gradients A P cf (plan_ok.2 h.good) h.interval h.pml h.freq hnt s h.lt h.src h.rcv
    bcb gr (Wavefields.zero d) ⟨fun _ _ => 0, fun _ _ _ => 0, fun _ => Wavefields.zero d⟩ rfl
  refine ⟨b, hb, fun q hq i hi hfar t ht => ?_⟩
  let D : UDir d := ⟨fun _ _ => 0, ampBump s i t, fun _ => Wavefields.zero d⟩
  obtain ⟨u, b', hu, hb', hd⟩ := C95_source_gradients A P cf (plan_ok.2 h.good) h.interval h.pml h.freq hnt s h.lt h.src h.rcv
    bcb gr (Wavefields.zero d) D rfl
  obtain rfl := Option.some.inj (Except.ok.inj (hb.symm.trans hb'))
  have e1 : ∀ e, A.plus e D = A.withModel A.v (A.amps.map fun a => plusAmp e a (ampBump s i t)) := fun e => by
    simp only [UArgs.plus, D, Wavefields.zero, wf_plus_zero, mul_zero, add_zero]
    rfl
  have hg := plus_good_zero h.good 1 D rfl
  have hu1 := hu 1
  have hu0 := hu 0
  rw [e1] at hg hu1 hu0
  rw [map_zero_plus] at hu0
  obtain ⟨r, w, psi, zeta, hc, -, -, -, ht'⟩ := C90_scalar_scheme A P s cf (plan_ok.2 h.good) h.lt h.pml h.src h.rcv
    h.freq h.interval h.nt
  obtain ⟨r', w', psi', zeta', hc', -, -, -, ht''⟩ := C90_scalar_scheme _ P s cf (plan_ok.2 hg) h.lt h.pml
    h.src h.rcv h.freq h.interval h.nt
  have e0 : u 0 = r := Option.some.inj (Except.ok.inj (hu0.symm.trans hc))
  have e2 : u 1 = r' := Option.some.inj (Except.ok.inj (hu1.symm.trans hc'))
  have hn : A.nRcv = locCount A.rcv := by
    unfold UArgs.nRcv locCount
    cases A.rcv <;> rfl
  have key : (u 1).pair A.nRcv (outCells P) gr (Wavefields.zero d) = (u 0).pair A.nRcv (outCells P) gr (Wavefields.zero d) := by
    have iz : ∀ x : Wavefields d ℝ, x.inner (outCells P) (Wavefields.zero d) = 0 := fun x => by
      simp [Wavefields.inner, Wavefields.zero]
    rw [e0, e2, hn]
    unfold UShot.pair
    rw [iz, iz, add_zero, add_zero]
    refine tracePair_until (T := T) hT (fun j hl => ?_) fun j hl t ht0 => ?_
    · have a1 := ht'' j hl
      have a2 := ht' j hl
      rw [a1, a2, downS_one hg h1, downS_one h.good h1]
    · cases e3 : locCell (d := d) A.rcv s j with
      | none =>
          have a1 := ht'' j hl
          have a2 := ht' j hl
          rw [a1, a2]
          exact traces_none h.good hg h1 e3
      | some c₀ =>
          obtain ⟨q1, q2, b1, b2, b3⟩ := C126_near A P s cf h A.v (A.amps.map fun a => plusAmp 1 a (ampBump s i _)) (.inr rfl)
            T j hl c₀ e3 (sameNear_refl A.v s c₀ _) (near_plus A.amps (ampBump_far hl e3 hfar))
          obtain rfl : r = q1 := Option.some.inj (Except.ok.inj (hc.symm.trans b1))
          obtain rfl : r' = q2 := Option.some.inj (Except.ok.inj (hc'.symm.trans b2))
          exact b3.2 h1 t ht0
  have := hd 1
  have e3 : A.givenOf (Wavefields.zero d) = Wavefields.zero d := by
    simp [UArgs.givenOf, Wavefields.zero]
  have e4 : A.ampPair (ampBump s i t s) b.amps = b.amps i t :=
    ampPair_bump A.amps s b.amps (by rw [hq]; rfl) (by rw [hq]; rfl) hi ht
  simp only [D] at this
  rw [key, e3, Wavefields.zero_inner, e4] at this
  linarith

/-- The source is three cells from the receiver, further than waves come until the second sample. -/
example : ∃ b, (exV 3).backward 0 false (fun _ t => if t ≤ 1 then 1 + t else 0) (Wavefields.zero 2) = .ok (some b) ∧
    b.amps 0 0 = 0 := by
  obtain ⟨b, h1, h2⟩ := C143_scalar_sources (exV 3) _ 0 1 exV_fwd rfl false (fun _ t => if t ≤ 1 then 1 + t else 0) 1
    (fun _ t ht => if_neg (by omega)) (.inl (by norm_num [exQ]))
  refine ⟨b, h1, h2 _ rfl 0 one_pos (fun c hc hs => ?_) 0 (by norm_num)⟩
  obtain ⟨j, hj, c₀, hc₀, hn⟩ := hs
  obtain rfl := Option.some.inj ((exOne_cell 5 4 j).symm.trans hc₀)
  obtain rfl := Option.some.inj ((exOne_cell 2 3 0).symm.trans hc)
  exact absurd (hn 0) (by decide)

end Dw.Scalar

namespace Dw.Born

open Setup Resample Scalar

variable {d : ℕ}

/-- **C143** for `scalar_born`. -/
theorem C143_born_sources (A : UArgs d) (P : Plan d) (s : ℕ) (cf : ℤ) (h : Fwd A P s cf) (h1 : P.ratio = 1) (full bcb : Bool)
    (hfull : (A.gradV || full) = true) (gr gs : ℕ → ℕ → ℝ) (T : ℕ) (hT : ∀ i t, T < t → gr i t = 0)
    (hT' : ∀ i t, T < t → gs i t = 0) (hnt : P.ratio * P.interval ≤ P.nt ∨ P.nt ≤ 0) :
    ∃ b, A.backward s full bcb gr gs (Wavefields.zero d) (Wavefields.zero d) = .ok (some b) ∧
      ∀ q, A.amps = some q → ∀ i < q.n, (∀ c : Cell d, locCell A.src s i = some c →
          ¬SeenBy A.bgRcv s ((P.acc.order / 2 : ℕ) * T) c ∧ ¬SeenBy A.rcv s ((P.acc.order / 2 : ℕ) * T) c) →
        ∀ t < q.nt, b.amps i t = 0 := by
  obtain ⟨-, b, -, hb, -⟩ := C97_born_source_gradients A P cf (plan_ok.2 h.good) h.interval h.pml h.freq hnt s h.lt h.loc
    full bcb gr gs (Wavefields.zero d) (Wavefields.zero d)
    ⟨fun _ _ => 0, fun _ _ => 0, fun _ _ _ => 0, fun _ => Wavefields.zero d, fun _ => Wavefields.zero d⟩ rfl rfl (.inl hfull)
  refine ⟨b, hb, fun q hq i hi hfar t ht => ?_⟩
  let D : UDir d := ⟨fun _ _ => 0, fun _ _ => 0, ampBump s i t, fun _ => Wavefields.zero d, fun _ => Wavefields.zero d⟩
  obtain ⟨u, b', hu, hb', hd⟩ := C97_born_source_gradients A P cf (plan_ok.2 h.good) h.interval h.pml h.freq hnt s h.lt h.loc
    full bcb gr gs (Wavefields.zero d) (Wavefields.zero d) D rfl rfl (.inl hfull)
  obtain rfl := Option.some.inj (Except.ok.inj (hb.symm.trans hb'))
  have e1 : ∀ e, A.plus e D = A.withModels A.v A.scatter (A.amps.map fun a => plusAmp e a (ampBump s i t)) := fun e => by
    simp only [UArgs.plus, D, UWf.plus, Wavefields.zero, wf_plus_zero, model_plus_zero]
    rfl
  have hg := plus_good_zero h.good 1 D rfl rfl
  have hu1 := hu 1
  have hu0 := hu 0
  rw [e1] at hg hu1 hu0
  rw [map_zero_plus] at hu0
  obtain ⟨r, w, psi, zeta, wsc, ps, ze, hc, -, -, -, -, -, -, hbt, htr⟩ := C91_born_scheme A P s cf (plan_ok.2 h.good)
    h.lt h.pml h.loc h.freq h.interval h.nt
  obtain ⟨r', w', psi', zeta', wsc', ps', ze', hc', -, -, -, -, -, -, hbt', htr'⟩ := C91_born_scheme _ P s cf
    (plan_ok.2 hg) h.lt h.pml h.loc h.freq h.interval h.nt
  have e0 : u 0 = r := Option.some.inj (Except.ok.inj (hu0.symm.trans hc))
  have e2 : u 1 = r' := Option.some.inj (Except.ok.inj (hu1.symm.trans hc'))
  have near : ∀ c₀, (∀ j c, locCell A.src s j = some c → Spec.Near c₀ ((P.acc.order / 2 : ℕ) * T) c → ampBump s i t s j = fun _ => 0) →
      (∀ j < locCount A.bgRcv, locCell A.bgRcv s j = some c₀ → P.SameUntil T (r.bgTraces j) (r'.bgTraces j)) ∧
      ∀ j < locCount A.rcv, locCell A.rcv s j = some c₀ → P.SameUntil T (r.traces j) (r'.traces j) := fun c₀ hf => by
    obtain ⟨q1, q2, b1, b2, b3⟩ := C126_born_near A P s cf h A.v A.scatter (A.amps.map fun a => plusAmp 1 a (ampBump s i t))
      (.inr rfl) T c₀ (sameNear_refl A.v s c₀ _) (sameNear_refl A.scatter s c₀ _) (near_plus A.amps hf)
    obtain rfl : r = q1 := Option.some.inj (Except.ok.inj (hc.symm.trans b1))
    obtain rfl : r' = q2 := Option.some.inj (Except.ok.inj (hc'.symm.trans b2))
    exact b3
  have key : (u 1).pair A (outCells P) gr gs (Wavefields.zero d) (Wavefields.zero d) =
      (u 0).pair A (outCells P) gr gs (Wavefields.zero d) (Wavefields.zero d) := by
    have iz : ∀ x : Wavefields d ℝ, x.inner (outCells P) (Wavefields.zero d) = 0 := fun x => by
      simp [Wavefields.inner, Wavefields.zero]
    have k1 : tracePair (locCount A.bgRcv) gr r'.bgTraces = tracePair (locCount A.bgRcv) gr r.bgTraces := by
      refine tracePair_until (T := T) hT (fun j hl => ?_) fun j hl t ht0 => ?_
      · have a1 := hbt' j hl
        have a2 := hbt j hl
        rw [a1, a2, downS_one hg h1, downS_one h.good h1]
      · cases e3 : locCell (d := d) A.bgRcv s j with
        | none =>
            have a1 := hbt' j hl
            have a2 := hbt j hl
            rw [a1, a2]
            exact traces_none h.good hg h1 e3
        | some c₀ => exact ((near c₀ (ampBump_far hl e3 fun c hc => (hfar c hc).1)).1 j hl e3).2 h1 _ ht0
    have k2 : tracePair (locCount A.rcv) gs r'.traces = tracePair (locCount A.rcv) gs r.traces := by
      refine tracePair_until (T := T) hT' (fun j hl => ?_) fun j hl t ht0 => ?_
      · have a1 := htr' j hl
        have a2 := htr j hl
        rw [a1, a2, downS_one hg h1, downS_one h.good h1]
      · cases e3 : locCell (d := d) A.rcv s j with
        | none =>
            have a1 := htr' j hl
            have a2 := htr j hl
            rw [a1, a2]
            exact traces_none h.good hg h1 e3
        | some c₀ => exact ((near c₀ (ampBump_far hl e3 fun c hc => (hfar c hc).2)).2 j hl e3).2 h1 _ ht0
    rw [e0, e2]
    unfold UShot.pair
    rw [iz, iz, iz, iz, k1, k2]
  have := hd 1
  have e4 : ampPair A.amps (ampBump s i t s) b.amps = b.amps i t :=
    ampPair_bump A.amps s b.amps (by rw [hq]; rfl) (by rw [hq]; rfl) hi ht
  simp only [D] at this
  rw [key, givenOf_zero, givenOf_zero, Wavefields.zero_inner, Wavefields.zero_inner, e4] at this
  linarith

noncomputable def exFar : UArgs 2 :=
  { exU .none with src := some (exAt 1 1), rcv := some (exAt 5 7), bgRcv := some (exAt 5 7), amps := some exCall
                   opts := exO0 .none }

noncomputable def exFarP : Plan 2 := exPl0 false ![(0, 7), (0, 9)] exFar.setup.models exFar.setup.srcs exFar.setup.rcvs

theorem exFar_fwd : Fwd exFar exFarP 1 1 where
  good := by
    refine exO0_good_of (fun l hl => (exFar_locs ?_).1) (fun x hx => ?_) (exU_noWf (sp := .none)) (fun m hm => ?_)
      (List.cons_ne_nil _ _) rfl rfl rfl (by decide) (by decide +kernel)
    · have : some l ∈ [some (exAt 1 1), some (exAt 1 1), some (exAt 5 7), some (exAt 5 7)] := hl
      simpa using this
    · have : some x ∈ [some exCall, some exCall] := hx
      simp only [List.mem_cons, List.not_mem_nil, or_false, Option.some.injEq, or_self] at this
      rw [this]
      exact ⟨rfl, rfl⟩
    · simp only [List.mem_cons, List.not_mem_nil, or_false] at hm
      rcases hm with rfl | rfl <;> exact ⟨rfl, rfl⟩
  lt := by norm_num [exFarP, exPl0]
  pml := .inr fun k => exPl0_width _ _ _ _ _ k
  loc := fun l hl => by
    have h1 : l = exAt 1 1 ∨ l = exAt 5 7 := by
      rcases hl with hl | hl | hl
      · exact .inl (Option.some.inj hl).symm
      · exact .inr (Option.some.inj hl).symm
      · exact .inr (Option.some.inj hl).symm
    exact (exFar_locs (st := true) h1).2.1
  freq := rfl
  interval := by norm_num [exFarP, exPl0]
  nt := .inr (.inl (by norm_num [exFarP, exPl0]))

/-- Source and receivers are six cells apart; waves come two cells far until the second sample. -/
example : ∃ b, exFar.backward 1 false true (fun _ t => if t ≤ 1 then 1 else 0) (fun i t => if t ≤ 1 then 1 + i else 0)
      (Wavefields.zero 2) (Wavefields.zero 2) = .ok (some b) ∧ b.amps 0 0 = 0 := by
  obtain ⟨b, h1, h2⟩ := C143_born_sources exFar _ 1 1 exFar_fwd rfl false true rfl
    (fun _ t => if t ≤ 1 then 1 else 0) (fun i t => if t ≤ 1 then 1 + i else 0) 1 (fun _ t ht => if_neg (by omega))
    (fun _ t ht => if_neg (by omega)) (.inl (by norm_num [exFarP, exPl0]))
  exact ⟨b, h1, h2 _ rfl 0 one_pos (fun c hc => ⟨exFar_unseen (by decide +kernel) c hc, exFar_unseen (by decide +kernel) c hc⟩)
    0 (by norm_num [exCall])⟩

end Dw.Born

namespace Dw.Acoustic

open Setup Resample Scalar

variable {d : ℕ}

/-- Cell `c` is at most `n` cells away from one of the receivers. -/
def UArgs.Sees (A : UArgs d) (s : ℕ) (n : ℤ) (c : Cell d) : Prop := SeenBy A.rcvP s n c ∨ ∃ k, SeenBy (A.rcvV k) s n c

theorem acoustic_far_dir {A : UArgs d} {P : Plan d} {s : ℕ} {cf : ℤ} (h : Fwd A P s cf) (h1 : P.ratio = 1)
    (hbig : ∀ k, (P.acc.pad : ℤ) + 1 ≤ (P.ext k).2 - (P.ext k).1 + P.w1 k) (bcb : Bool)
    {grP : ℕ → ℕ → ℝ} {grV : Fin d → ℕ → ℕ → ℝ} {T : ℕ} (hT : ∀ i t, T < t → grP i t = 0)
    (hT' : ∀ k i t, T < t → grV k i t = 0) (hnt : P.ratio * P.interval ≤ P.nt ∨ P.nt ≤ 0) {b : UGrad d}
    (hb : A.backward s bcb grP grV (noWf d) = .ok (some b)) {δp : ℕ → ℕ → ℕ → ℝ} {δv : Fin d → ℕ → ℕ → ℕ → ℝ}
    (hp : ∀ i c, locCell A.srcP s i = some c → A.Sees s (2 * (P.acc.order / 2 : ℕ) * T) c → δp s i = fun _ => 0)
    (hv : ∀ k i c, locCell (A.srcV k) s i = some c → A.Sees s (2 * (P.acc.order / 2 : ℕ) * T) c → δv k s i = fun _ => 0) :
    ampPair A.ampP (δp s) b.ampP + ∑ k, ampPair (A.ampV k) (δv k s) (b.ampV k) = 0 := by
  let D : UDir d := ⟨fun _ _ => 0, fun _ _ => 0, δp, δv, fun _ => noWf d⟩
  obtain ⟨u, b', hu, hb', hd⟩ := C99_acoustic_source_gradients A P cf (plan_ok.2 h.good) h.pre h.interval h.pml h.freq hnt s
    h.lt h.loc h.last hbig bcb grP grV (noWf d) D rfl rfl
  obtain rfl := Option.some.inj (Except.ok.inj (hb.symm.trans hb'))
  have e1 : ∀ e, A.plus e D = A.withModels A.v A.rho (A.ampP.map fun a => plusAmp e a δp) (fun k => (A.ampV k).map fun a => plusAmp e a (δv k)) := fun e => by
    simp only [UArgs.plus, D, UWf.plus, noWf, wf_plus_zero, model_plus_zero]
    rfl
  have hg := plus_good_zero h.good 1 D rfl rfl
  have hu1 := hu 1
  have hu0 := hu 0
  rw [e1] at hg hu1 hu0
  simp only [map_zero_plus] at hu0
  obtain ⟨r, p, v, phi, psi, hc, -, -, -, hpt, hvt⟩ := C92_acoustic_scheme A P s cf (plan_ok.2 h.good) h.pre
    h.lt h.pml h.loc h.last h.freq h.interval h.nt
  obtain ⟨r', p', v', phi', psi', hc', -, -, -, hpt', hvt'⟩ := C92_acoustic_scheme _ P s cf (plan_ok.2 hg) h.pre
    h.lt h.pml h.loc h.last h.freq h.interval h.nt
  have e0 : u 0 = r := Option.some.inj (Except.ok.inj (hu0.symm.trans hc))
  have e2 : u 1 = r' := Option.some.inj (Except.ok.inj (hu1.symm.trans hc'))
  have near : ∀ c₀, (∀ c, Spec.Near c₀ (2 * (P.acc.order / 2 : ℕ) * T) c → A.Sees s (2 * (P.acc.order / 2 : ℕ) * T) c) →
      (∀ j < locCount A.rcvP, locCell A.rcvP s j = some c₀ → P.SameUntil T (r.tracesP j) (r'.tracesP j)) ∧
      ∀ k, ∀ j < locCount (A.rcvV k), locCell (A.rcvV k) s j = some c₀ → P.SameUntil T (r.tracesV k j) (r'.tracesV k j) :=
    fun c₀ hs => by
    obtain ⟨q1, q2, b1, b2, b3⟩ := C126_acoustic_near A P s cf h A.v A.rho (A.ampP.map fun a => plusAmp 1 a δp) (fun k => (A.ampV k).map fun a => plusAmp 1 a (δv k))
      (.inr rfl) T c₀ (sameNear_refl A.v s c₀ _) (sameNear_refl A.rho s c₀ _)
      (near_plus A.ampP fun i c hc hn => hp i c hc (hs c hn))
      (fun k => near_plus (A.ampV k) fun i c hc hn => hv k i c hc (hs c hn))
    obtain rfl : r = q1 := Option.some.inj (Except.ok.inj (hc.symm.trans b1))
    obtain rfl : r' = q2 := Option.some.inj (Except.ok.inj (hc'.symm.trans b2))
    exact b3
  have key : (u 1).pair A (outCells P) grP grV (noWf d) = (u 0).pair A (outCells P) grP grV (noWf d) := by
    have iz : ∀ x : Wavefields d ℝ, x.inner (outCells P) (noWf d) = 0 := fun x => by
      simp [Wavefields.inner, noWf]
    have k1 : tracePair (locCount A.rcvP) grP r'.tracesP = tracePair (locCount A.rcvP) grP r.tracesP := by
      refine tracePair_until (T := T) hT (fun j hl => ?_) fun j hl t ht0 => ?_
      · have a1 := hpt' j hl
        have a2 := hpt j hl
        rw [a1, a2, downS_one hg h1, downS_one h.good h1]
      · cases e3 : locCell (d := d) A.rcvP s j with
        | none =>
            have a1 := hpt' j hl
            have a2 := hpt j hl
            rw [a1, a2]
            exact traces_none h.good hg h1 e3
        | some c₀ => exact ((near c₀ fun c hn => .inl ⟨j, hl, c₀, e3, hn⟩).1 j hl e3).2 h1 _ ht0
    have k2 : ∀ k, tracePair (locCount (A.rcvV k)) (grV k) (r'.tracesV k) = tracePair (locCount (A.rcvV k)) (grV k) (r.tracesV k) :=
        fun k => by
      refine tracePair_until (T := T) (hT' k) (fun j hl => ?_) fun j hl t ht0 => ?_
      · have a1 := hvt' k j hl
        have a2 := hvt k j hl
        rw [a1, a2, downS_one hg h1, downS_one h.good h1]
      · cases e3 : locCell (d := d) (A.rcvV k) s j with
        | none =>
            have a1 := hvt' k j hl
            have a2 := hvt k j hl
            rw [a1, a2]
            exact traces_none h.good hg h1 e3
        | some c₀ => exact ((near c₀ fun c hn => .inr ⟨k, j, hl, c₀, e3, hn⟩).2 k j hl e3).2 h1 _ ht0
    rw [e0, e2]
    unfold UShot.pair
    simp only [iz, k1, k2]
  have := hd 1
  simp only [D] at this
  rw [key, givenOf_noWf] at this
  linarith

/-- **C143** for `acoustic`. -/
theorem C143_acoustic_sources (A : UArgs d) (P : Plan d) (s : ℕ) (cf : ℤ) (h : Fwd A P s cf) (h1 : P.ratio = 1)
    (hbig : ∀ k, (P.acc.pad : ℤ) + 1 ≤ (P.ext k).2 - (P.ext k).1 + P.w1 k) (bcb : Bool)
    (grP : ℕ → ℕ → ℝ) (grV : Fin d → ℕ → ℕ → ℝ) (T : ℕ) (hT : ∀ i t, T < t → grP i t = 0)
    (hT' : ∀ k i t, T < t → grV k i t = 0) (hnt : P.ratio * P.interval ≤ P.nt ∨ P.nt ≤ 0) :
    ∃ b, A.backward s bcb grP grV (noWf d) = .ok (some b) ∧
      (∀ q, A.ampP = some q → ∀ i < q.n, (∀ c, locCell A.srcP s i = some c → ¬A.Sees s (2 * (P.acc.order / 2 : ℕ) * T) c) →
        ∀ t < q.nt, b.ampP i t = 0) ∧
      ∀ k q, A.ampV k = some q → ∀ i < q.n, (∀ c, locCell (A.srcV k) s i = some c → ¬A.Sees s (2 * (P.acc.order / 2 : ℕ) * T) c) →
        ∀ t < q.nt, b.ampV k i t = 0 := by
  obtain ⟨-, b, -, hb, -⟩ := C99_acoustic_source_gradients A P cf (plan_ok.2 h.good) h.pre h.interval h.pml h.freq hnt s
    h.lt h.loc h.last hbig bcb grP grV (noWf d) ⟨fun _ _ => 0, fun _ _ => 0, fun _ _ _ => 0, fun _ _ _ _ => 0, fun _ => noWf d⟩ rfl rfl
  refine ⟨b, hb, fun q hq i hi hfar t ht => ?_, fun k q hq i hi hfar t ht => ?_⟩
  · have e := acoustic_far_dir h h1 hbig bcb hT hT' hnt hb (δp := ampBump s i t) (δv := fun _ _ _ _ => 0)
      (bump_unseen hfar) fun _ _ _ _ _ => rfl
    rwa [Finset.sum_eq_zero fun k _ => ampPair_zero _ _, add_zero,
      ampPair_bump A.ampP s b.ampP (by rw [hq]; rfl) (by rw [hq]; rfl) hi ht] at e
  · have e := acoustic_far_dir h h1 hbig bcb hT hT' hnt hb (δp := fun _ _ _ => 0)
      (δv := fun k' => if k' = k then ampBump s i t else fun _ _ _ => 0) (fun _ _ _ _ => rfl) fun k' j c hc hn => by
        by_cases hk : k' = k
        · subst hk
          simp only [if_true]
          exact bump_unseen hfar j c hc hn
        · simp only [hk, if_false]
    rw [ampPair_zero, zero_add, Finset.sum_eq_single k (fun k' _ hk => by
      rw [if_neg hk]
      exact ampPair_zero _ _) (fun hk => absurd (Finset.mem_univ k) hk), if_pos rfl,
      ampPair_bump (A.ampV k) s (b.ampV k) (by rw [hq]; rfl) (by rw [hq]; rfl) hi ht] at e
    exact e

noncomputable def exFar : UArgs 2 := {exU .none with opts := exO0 .none}

noncomputable def exFarP (a b : Fin 3) : Plan 2 :=
  exPl0 true ![(0, 7), (0, 9)] exFar.setup.models (oneAt 3 a (exAt 1 1)) (oneAt 3 b (exAt 5 7))

theorem exFar_fwd (a b : Fin 3) : Fwd (exFar.between a b (exAt 1 1) (exAt 5 7) exCall) (exFarP a b) 1 1 where
  good := by
    rw [between_setup]
    refine exO0_good_of (fun l hl => (exFar_locs ?_).1) (fun x hx => ?_) (exU_noWf (sp := .none)) (fun m hm => ?_)
      (List.cons_ne_nil _ _) ?_ ?_ ?_ (by decide) ?_
    · rw [List.mem_append, oneAt_mem, oneAt_mem] at hl
      exact hl
    · rw [(oneAt_mem _ _ _).1 hx]
      exact ⟨rfl, rfl⟩
    · have hm : m ∈ [(exFar.v, PadMode.replicate), (exFar.rho, PadMode.replicate)] := hm
      simp only [List.mem_cons, List.not_mem_nil, or_false] at hm
      rcases hm with rfl | rfl <;> exact ⟨rfl, rfl⟩
    · revert a; decide +kernel
    · revert a; decide +kernel
    · rw [oneAt_map, oneAt_map]
      exact checkAmpsMatch_oneAt _ _
    · revert a b; decide +kernel
  pre := by
    rintro ((h | ⟨k, h⟩) | ⟨k, l, hl, h⟩)
    · cases h
    · revert k
      show ∀ k : Fin 2, (![7, 9] : Fin 2 → ℤ) k ≤ 0 → False
      decide
    · refine (exFar_locs (st := true) ?_).2.2 k h
      have := UArgs.mem_loc hl
      rw [between_setup] at this
      rw [List.mem_append] at this
      exact this.imp (oneAt_mem _ _ _).1 (oneAt_mem _ _ _).1
  lt := by norm_num [exFarP, exPl0]
  pml := .inr fun k => exPl0_width _ _ _ _ _ k
  loc := by
    intro l hl
    rw [between_setup, List.mem_append] at hl
    exact (exFar_locs (st := true) (hl.imp (oneAt_mem _ _ _).1 (oneAt_mem _ _ _).1)).2.1
  last := fun k => .inr (.inl (by
    show ((![(0, 7), (0, 9)] : Fin 2 → ℤ × ℤ) k).2 = (![7, 9] : Fin 2 → ℤ) k
    revert k
    decide))
  freq := rfl
  interval := by norm_num [exFarP, exPl0]
  nt := .inr (.inl (by norm_num [exFarP, exPl0]))

/-- Source of pressure, receiver of the first velocity, six cells apart; waves come four cells far until the second sample. -/
example : ∃ b, (exFar.between 0 1 (exAt 1 1) (exAt 5 7) exCall).backward 1 true (fun _ t => if t ≤ 1 then 1 else 0)
      (fun _ i t => if t ≤ 1 then 1 + i else 0) (noWf 2) = .ok (some b) ∧ b.ampP 0 0 = 0 := by
  obtain ⟨b, h1, h2, h3⟩ := C143_acoustic_sources (exFar.between 0 1 (exAt 1 1) (exAt 5 7) exCall) _ 1 1 (exFar_fwd 0 1) rfl
    (fun k => by fin_cases k <;> decide +kernel) true (fun _ t => if t ≤ 1 then 1 else 0)
    (fun _ i t => if t ≤ 1 then 1 + i else 0) 1 (fun _ t ht => if_neg (by omega))
    (fun _ _ t ht => if_neg (by omega)) (.inl (by norm_num [exFarP, exPl0]))
  refine ⟨b, h1, h2 _ rfl 0 one_pos (fun c hc => ?_) 0 (by norm_num [exCall])⟩
  · rintro (⟨i, hi, -⟩ | ⟨k, h⟩)
    · cases hi
    · fin_cases k
      · exact exFar_unseen (by decide +kernel) c hc h
      · obtain ⟨i, hi, -⟩ := h
        cases hi

end Dw.Acoustic

namespace Dw.Elastic

open Setup Resample Scalar

variable {d : ℕ}

/-- Cell `c` is at most `n` cells away from one of the receivers. -/
def UArgs.Sees (A : UArgs d) (s : ℕ) (n : ℤ) (c : Cell d) : Prop := SeenBy A.rcvP s n c ∨ ∃ k, SeenBy (A.rcvV k) s n c

theorem elastic_far_dir {A : UArgs d} {P : Plan d} {s : ℕ} {cf : ℤ} (h : Fwd A P s cf) (h1 : P.ratio = 1)
    (hbig : ∀ k, (P.acc.pad : ℤ) + 1 ≤ (P.ext k).2 - (P.ext k).1 + P.w1 k) (bcb : Bool)
    {grP : ℕ → ℕ → ℝ} {grV : Fin d → ℕ → ℕ → ℝ} {T : ℕ} (hT : ∀ i t, T < t → grP i t = 0)
    (hT' : ∀ k i t, T < t → grV k i t = 0) (hnt : P.ratio * P.interval ≤ P.nt ∨ P.nt ≤ 0) {b : UGrad d}
    (hb : A.backward s bcb grP grV (noWf d) = .ok (some b)) {δp : ℕ → ℕ → ℕ → ℝ} {δv : Fin d → ℕ → ℕ → ℕ → ℝ}
    (hp : ∀ i c, locCell A.srcP s i = some c → A.Sees s (2 * (P.acc.order / 2 : ℕ) * T) c → δp s i = fun _ => 0)
    (hv : ∀ k i c, locCell (A.srcV k) s i = some c → A.Sees s (2 * (P.acc.order / 2 : ℕ) * T) c → δv k s i = fun _ => 0) :
    ampPair A.ampP (δp s) b.ampP + ∑ k, ampPair (A.ampV k) (δv k s) (b.ampV k) = 0 := by
  let D : UDir d := ⟨fun _ _ => 0, fun _ _ => 0, fun _ _ => 0, δp, δv, fun _ => noWf d⟩
  obtain ⟨u, b', hu, hb', hd⟩ := C101_elastic_source_gradients A P cf (plan_ok.2 h.good) h.pre h.interval h.pml h.freq hnt s
    h.lt h.loc h.last hbig bcb grP grV (noWf d) D rfl rfl rfl
  obtain rfl := Option.some.inj (Except.ok.inj (hb.symm.trans hb'))
  have e1 : ∀ e, A.plus e D = A.withModels A.lam A.mu A.buoyancy (fun k => (A.ampV k).map fun a => plusAmp e a (δv k)) (A.ampP.map fun a => plusAmp e a δp) := fun e => by
    simp only [UArgs.plus, D, UWf.plus, noWf, wf_plus_zero, model_plus_zero]
    rfl
  have hg := plus_good_zero h.good 1 D rfl rfl rfl
  have hu1 := hu 1
  have hu0 := hu 0
  rw [e1] at hg hu1 hu0
  simp only [map_zero_plus] at hu0
  obtain ⟨r, v, sig, mv, ms, hc, -, -, -, hpt, hvt⟩ := C93_elastic_scheme A P s cf (plan_ok.2 h.good) h.pre
    h.lt h.pml h.loc h.last h.freq h.interval h.nt
  obtain ⟨r', v', sig', mv', ms', hc', -, -, -, hpt', hvt'⟩ := C93_elastic_scheme _ P s cf (plan_ok.2 hg) h.pre
    h.lt h.pml h.loc h.last h.freq h.interval h.nt
  have e0 : u 0 = r := Option.some.inj (Except.ok.inj (hu0.symm.trans hc))
  have e2 : u 1 = r' := Option.some.inj (Except.ok.inj (hu1.symm.trans hc'))
  have near : ∀ c₀, (∀ c, Spec.Near c₀ (2 * (P.acc.order / 2 : ℕ) * T) c → A.Sees s (2 * (P.acc.order / 2 : ℕ) * T) c) →
      (∀ j < locCount A.rcvP, locCell A.rcvP s j = some c₀ → P.SameUntil T (r.tracesP j) (r'.tracesP j)) ∧
      ∀ k, ∀ j < locCount (A.rcvV k), locCell (A.rcvV k) s j = some c₀ → P.SameUntil T (r.tracesV k j) (r'.tracesV k j) :=
    fun c₀ hs => by
    obtain ⟨q1, q2, b1, b2, b3⟩ := C126_elastic_near A P s cf h A.lam A.mu A.buoyancy (fun k => (A.ampV k).map fun a => plusAmp 1 a (δv k)) (A.ampP.map fun a => plusAmp 1 a δp)
      (.inr rfl) T c₀ (sameNear_refl A.lam s c₀ _) (sameNear_refl A.mu s c₀ _) (sameNear_refl A.buoyancy s c₀ _)
      (fun k => near_plus (A.ampV k) fun i c hc hn => hv k i c hc (hs c hn))
      (near_plus A.ampP fun i c hc hn => hp i c hc (hs c hn))
    obtain rfl : r = q1 := Option.some.inj (Except.ok.inj (hc.symm.trans b1))
    obtain rfl : r' = q2 := Option.some.inj (Except.ok.inj (hc'.symm.trans b2))
    exact b3
  have key : (u 1).pair A (outCells P) grP grV (noWf d) = (u 0).pair A (outCells P) grP grV (noWf d) := by
    have iz : ∀ x : Wavefields d ℝ, x.inner (outCells P) (noWf d) = 0 := fun x => by
      simp [Wavefields.inner, noWf]
    have k1 : tracePair (locCount A.rcvP) grP r'.tracesP = tracePair (locCount A.rcvP) grP r.tracesP := by
      refine tracePair_until (T := T) hT (fun j hl => ?_) fun j hl t ht0 => ?_
      · have a1 := hpt' j hl
        have a2 := hpt j hl
        rw [a1, a2, downS_one hg h1, downS_one h.good h1]
      · cases e3 : locCell (d := d) A.rcvP s j with
        | none =>
            have a1 := hpt' j hl
            have a2 := hpt j hl
            rw [a1, a2]
            exact congrArg (fun x : ℝ => -x / d) (traces_none h.good hg h1 e3)
        | some c₀ => exact ((near c₀ fun c hn => .inl ⟨j, hl, c₀, e3, hn⟩).1 j hl e3).2 h1 _ ht0
    have k2 : ∀ k, tracePair (locCount (A.rcvV k)) (grV k) (r'.tracesV k) = tracePair (locCount (A.rcvV k)) (grV k) (r.tracesV k) :=
        fun k => by
      refine tracePair_until (T := T) (hT' k) (fun j hl => ?_) fun j hl t ht0 => ?_
      · have a1 := hvt' k j hl
        have a2 := hvt k j hl
        rw [a1, a2, downS_one hg h1, downS_one h.good h1]
      · cases e3 : locCell (d := d) (A.rcvV k) s j with
        | none =>
            have a1 := hvt' k j hl
            have a2 := hvt k j hl
            rw [a1, a2]
            exact traces_none h.good hg h1 e3
        | some c₀ => exact ((near c₀ fun c hn => .inr ⟨k, j, hl, c₀, e3, hn⟩).2 k j hl e3).2 h1 _ ht0
    rw [e0, e2]
    unfold UShot.pair
    simp only [iz, k1, k2]
  have := hd 1
  simp only [D] at this
  rw [key, givenOf_noWf] at this
  linarith

/-- **C143** for `elastic`. -/
theorem C143_elastic_sources (A : UArgs d) (P : Plan d) (s : ℕ) (cf : ℤ) (h : Fwd A P s cf) (h1 : P.ratio = 1)
    (hbig : ∀ k, (P.acc.pad : ℤ) + 1 ≤ (P.ext k).2 - (P.ext k).1 + P.w1 k) (bcb : Bool)
    (grP : ℕ → ℕ → ℝ) (grV : Fin d → ℕ → ℕ → ℝ) (T : ℕ) (hT : ∀ i t, T < t → grP i t = 0)
    (hT' : ∀ k i t, T < t → grV k i t = 0) (hnt : P.ratio * P.interval ≤ P.nt ∨ P.nt ≤ 0) :
    ∃ b, A.backward s bcb grP grV (noWf d) = .ok (some b) ∧
      (∀ q, A.ampP = some q → ∀ i < q.n, (∀ c, locCell A.srcP s i = some c → ¬A.Sees s (2 * (P.acc.order / 2 : ℕ) * T) c) →
        ∀ t < q.nt, b.ampP i t = 0) ∧
      ∀ k q, A.ampV k = some q → ∀ i < q.n, (∀ c, locCell (A.srcV k) s i = some c → ¬A.Sees s (2 * (P.acc.order / 2 : ℕ) * T) c) →
        ∀ t < q.nt, b.ampV k i t = 0 := by
  obtain ⟨-, b, -, hb, -⟩ := C101_elastic_source_gradients A P cf (plan_ok.2 h.good) h.pre h.interval h.pml h.freq hnt s
    h.lt h.loc h.last hbig bcb grP grV (noWf d) ⟨fun _ _ => 0, fun _ _ => 0, fun _ _ => 0, fun _ _ _ => 0, fun _ _ _ _ => 0, fun _ => noWf d⟩ rfl rfl rfl
  refine ⟨b, hb, fun q hq i hi hfar t ht => ?_, fun k q hq i hi hfar t ht => ?_⟩
  · have e := elastic_far_dir h h1 hbig bcb hT hT' hnt hb (δp := ampBump s i t) (δv := fun _ _ _ _ => 0)
      (bump_unseen hfar) fun _ _ _ _ _ => rfl
    rwa [Finset.sum_eq_zero fun k _ => ampPair_zero _ _, add_zero,
      ampPair_bump A.ampP s b.ampP (by rw [hq]; rfl) (by rw [hq]; rfl) hi ht] at e
  · have e := elastic_far_dir h h1 hbig bcb hT hT' hnt hb (δp := fun _ _ _ => 0)
      (δv := fun k' => if k' = k then ampBump s i t else fun _ _ _ => 0) (fun _ _ _ _ => rfl) fun k' j c hc hn => by
        by_cases hk : k' = k
        · subst hk
          simp only [if_true]
          exact bump_unseen hfar j c hc hn
        · simp only [hk, if_false]
    rw [ampPair_zero, zero_add, Finset.sum_eq_single k (fun k' _ hk => by
      rw [if_neg hk]
      exact ampPair_zero _ _) (fun hk => absurd (Finset.mem_univ k) hk), if_pos rfl,
      ampPair_bump (A.ampV k) s (b.ampV k) (by rw [hq]; rfl) (by rw [hq]; rfl) hi ht] at e
    exact e

noncomputable def exFar : UArgs 2 :=
  { exU .none with mu := ⟨none, ![7, 9], fun _ c => if c 1 < 4 then 500 else 0⟩, opts := exO0 .none }

noncomputable def exFarP (a b : Fin 3) : Plan 2 :=
  exPl0 true ![(0, 7), (0, 9)] exFar.setup.models (oneAt 3 a (exAt 1 1)) (oneAt 3 b (exAt 5 7))

theorem exFar_fwd (a b : Fin 3) : Fwd (exFar.between a b (exAt 1 1) (exAt 5 7) exCall) (exFarP a b) 1 1 where
  good := by
    rw [between_setup]
    refine exO0_good_of (fun l hl => (exFar_locs ?_).1) (fun x hx => ?_) (exU_noWf (sp := .none)) (fun m hm => ?_)
      (List.cons_ne_nil _ _) ?_ ?_ ?_ (by decide) ?_
    · rw [List.mem_append, oneAt_mem, oneAt_mem] at hl
      exact hl
    · rw [(oneAt_mem _ _ _).1 hx]
      exact ⟨rfl, rfl⟩
    · have hm : m ∈ [(exFar.lam, PadMode.replicate), (exFar.mu, PadMode.replicate), (exFar.buoyancy, PadMode.replicate)] := hm
      simp only [List.mem_cons, List.not_mem_nil, or_false] at hm
      rcases hm with rfl | rfl | rfl <;> exact ⟨rfl, rfl⟩
    · revert a; decide +kernel
    · revert a; decide +kernel
    · rw [oneAt_map, oneAt_map]
      exact checkAmpsMatch_oneAt _ _
    · revert a b; decide +kernel
  pre := by
    have h0 : ∀ k : Fin 2, (![7, 9] : Fin 2 → ℤ) k ≤ 0 → False := by decide
    rintro (⟨k, l, hl, h⟩ | (h | ⟨k, h⟩) | (h | ⟨k, h⟩) | (h | ⟨k, h⟩))
    · refine (exFar_locs (st := true) ?_).2.2 k h
      have := UArgs.mem_loc hl
      rw [between_setup] at this
      rw [List.mem_append] at this
      exact this.imp (oneAt_mem _ _ _).1 (oneAt_mem _ _ _).1
    · cases h
    · exact h0 k h
    · cases h
    · exact h0 k h
    · cases h
    · exact h0 k h
  lt := by norm_num [exFarP, exPl0]
  pml := .inr fun k => exPl0_width _ _ _ _ _ k
  loc := by
    intro l hl
    rw [between_setup, List.mem_append] at hl
    exact (exFar_locs (st := true) (hl.imp (oneAt_mem _ _ _).1 (oneAt_mem _ _ _).1)).2.1
  last := fun k => .inr (.inl (by
    show ((![(0, 7), (0, 9)] : Fin 2 → ℤ × ℤ) k).2 = (![7, 9] : Fin 2 → ℤ) k
    revert k
    decide))
  freq := rfl
  interval := by norm_num [exFarP, exPl0]
  nt := .inr (.inl (by norm_num [exFarP, exPl0]))

/-- Source of the first velocity, receiver of the second one, six cells apart; waves come four cells far until the second sample. -/
example : ∃ b, (exFar.between 0 1 (exAt 1 1) (exAt 5 7) exCall).backward 1 true (fun _ t => if t ≤ 1 then 1 else 0)
      (fun _ i t => if t ≤ 1 then 1 + i else 0) (noWf 2) = .ok (some b) ∧ b.ampV 0 0 0 = 0 := by
  obtain ⟨b, h1, h2, h3⟩ := C143_elastic_sources (exFar.between 0 1 (exAt 1 1) (exAt 5 7) exCall) _ 1 1 (exFar_fwd 0 1) rfl
    (fun k => by fin_cases k <;> decide +kernel) true (fun _ t => if t ≤ 1 then 1 else 0)
    (fun _ i t => if t ≤ 1 then 1 + i else 0) 1 (fun _ t ht => if_neg (by omega))
    (fun _ _ t ht => if_neg (by omega)) (.inl (by norm_num [exFarP, exPl0]))
  refine ⟨b, h1, h3 0 _ rfl 0 one_pos (fun c hc => ?_) 0 (by norm_num [exCall])⟩
  · rintro (⟨i, hi, -⟩ | ⟨k, h⟩)
    · cases hi
    · fin_cases k
      · obtain ⟨i, hi, -⟩ := h
        cases hi
      · exact exFar_unseen (by decide +kernel) c hc h

end Dw.Elastic
