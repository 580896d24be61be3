import Verif.Elastic.Forward
import Verif.Acoustic.NegDt

/-!
# The sign of the time step in the elastic propagator
-/

namespace Dw.Elastic

open Dw.Scalar (addTo recordFrom addTo_neg recordFrom_neg update_neg cSH1_neg cS1_neg)

variable {d np mp : ℕ} {nv mv : Fin d → ℕ} {R : Type*} [Field R]

/-- The same with the opposite time step. -/
def Cfg.negDt (C : Cfg d np mp nv mv R) : Cfg d np mp nv mv R := {C with dt := -C.dt}

/-- Particle velocities reversed, with the auxiliary fields computed from them. -/
def Wavefields.reversed (w : Wavefields d R) : Wavefields d R :=
  ⟨fun i c => -w.v i c, w.s, w.sh, fun i j c => -w.mv i j c, w.ms⟩

def Init.reversed (w : Init d R) : Init d R :=
  ⟨fun i => (w.v i).map fun u c => -u c, w.s, w.sh, fun i j => (w.mv i j).map fun u c => -u c, w.ms⟩

def FMem.reversed (m : FMem d mp mv R) : FMem d mp mv R :=
  { wf := m.wf.reversed, storeB := fun j i c => -m.storeB j i c, storeN := m.storeN, storeS := m.storeS
    rcdP := m.rcdP, rcdV := fun i t r => -m.rcdV i t r }

def Event.reversed (e : Event d R) : Event d R := ⟨e.step, e.wf.reversed⟩

theorem cD_neg (acc : Acc) (h : Bool) (rdx : R) (a : ℤ → R) :
    cD acc h rdx (fun j => -a j) = -cD acc h rdx a := by
  cases h
  · exact cS1_neg _ _ _
  · exact cSH1_neg _ _ _

theorem pick_neg (n : Fin d → R) (l r : Sh d → R) (i j : Fin d) :
    pick (fun i => -n i) (fun p => -l p) (fun p => -r p) i j = -pick n l r i j := by
  unfold pick
  split_ifs <;> rfl

theorem fStep_negDt (C : Cfg d np mp nv mv R) (gl gm gb : Bool) (fp : ℕ → Fin np → R)
    (fv : (k : Fin d) → ℕ → Fin (nv k) → R) (t : ℕ) (m : FMem d mp mv R) :
    fStep C.negDt.fwdArgs gl gm gb fp (fun k t i => -fv k t i) t m.reversed =
      (fStep C.fwdArgs gl gm gb fp fv t m).reversed := by
  set A := C.fwdArgs with hA
  set A' := C.negDt.fwdArgs with hA'
  have hdt : A'.dt = -A.dt := rfl
  set saveB := gb && t % A.ratio == 0 with hsB
  set saveS := gm && t % A.ratio == 0 with hsS
  set saveN := (gl && t % A.ratio == 0) || saveS with hsN
  set w := m.wf with hw
  set mv0 : Fin d × Cell d → VCell d R := fun ic =>
    ⟨w.v ic.1 ic.2, fun j => w.ms ic.1 j ic.2, m.storeB (t / A.ratio) ic.1 ic.2⟩ with hmv0
  set vel := foldUpdate (velBody A saveB (sigOf w.s w.sh))
    (regionVisits (List.finRange d) fun i => A.bounds (vLoc i)) mv0 with hvel
  have e1 : ∀ kc, foldUpdate (velBody A' saveB (sigOf w.s w.sh))
      (regionVisits (List.finRange d) fun i => A'.bounds (vLoc i))
      (fun ic => (⟨-w.v ic.1 ic.2, fun j => w.ms ic.1 j ic.2, -m.storeB (t / A.ratio) ic.1 ic.2⟩ : VCell d R))
      kc = ⟨-(vel kc).v, (vel kc).m, -(vel kc).store⟩ := by
    intro kc
    refine foldUpdate_rel (body := velBody A saveB (sigOf w.s w.sh))
      (body' := velBody A' saveB (sigOf w.s w.sh))
      (l := regionVisits (List.finRange d) fun i => A.bounds (vLoc i)) (m := mv0)
      (m' := fun ic => (⟨-w.v ic.1 ic.2, fun j => w.ms ic.1 j ic.2, -m.storeB (t / A.ratio) ic.1 ic.2⟩ :
        VCell d R))
      (Q := fun _ (x y : VCell d R) => y = ⟨-x.v, x.m, -x.store⟩) (fun _ => rfl) ?_ kc
    rintro ⟨r, k, c⟩ _ s s' rfl
    simp only [velBody, hdt]
    congr 1
    · change -s.v + A.B k c * -A.dt * _ = -(s.v + A.B k c * A.dt * _)
      ring!
    · by_cases h : saveB = true
      · rw [if_pos h, if_pos h]; ring!
      · rw [if_neg h, if_neg h]
  set v : Fin d → Fld d R := fun k => addTo (fun c => (vel (k, c)).v) (A.srcV k) (fv k t) with hv
  set ms0 : Option (Sh d) × Cell d → SCell d R := fun kc =>
    { s := fun i => w.s i kc.2
      m := fun i => w.mv i i kc.2
      store := fun i => m.storeN (t / A.ratio) i kc.2
      sh := kc.1.elim 0 fun p => w.sh p kc.2
      ml := kc.1.elim 0 fun p => w.mv p.1.1 p.1.2 kc.2
      mr := kc.1.elim 0 fun p => w.mv p.1.2 p.1.1 kc.2
      storeS := kc.1.elim 0 fun p => m.storeS (t / A.ratio) p kc.2 } with hms0
  set str := foldUpdate (strBody A saveN saveS v)
    (regionVisits (stressNests d) fun k => A.bounds (nestLoc k)) ms0 with hstr
  have e2 : ∀ kc, foldUpdate (strBody A' saveN saveS fun k c => -v k c)
      (regionVisits (stressNests d) fun k => A'.bounds (nestLoc k)) (fun kc =>
      { s := fun i => w.s i kc.2
        m := fun i => -w.mv i i kc.2
        store := fun i => m.storeN (t / A.ratio) i kc.2
        sh := kc.1.elim 0 fun p => w.sh p kc.2
        ml := kc.1.elim 0 fun p => -w.mv p.1.1 p.1.2 kc.2
        mr := kc.1.elim 0 fun p => -w.mv p.1.2 p.1.1 kc.2
        storeS := kc.1.elim 0 fun p => m.storeS (t / A.ratio) p kc.2 }) kc =
      ⟨(str kc).s, fun i => -(str kc).m i, (str kc).store, (str kc).sh, -(str kc).ml, -(str kc).mr,
        (str kc).storeS⟩ := by
    intro kc
    refine foldUpdate_rel (body := strBody A saveN saveS v)
      (body' := strBody A' saveN saveS fun k c => -v k c)
      (l := regionVisits (stressNests d) fun k => A.bounds (nestLoc k)) (m := ms0)
      (m' := fun kc =>
      { s := fun i => w.s i kc.2
        m := fun i => -w.mv i i kc.2
        store := fun i => m.storeN (t / A.ratio) i kc.2
        sh := kc.1.elim 0 fun p => w.sh p kc.2
        ml := kc.1.elim 0 fun p => -w.mv p.1.1 p.1.2 kc.2
        mr := kc.1.elim 0 fun p => -w.mv p.1.2 p.1.1 kc.2
        storeS := kc.1.elim 0 fun p => m.storeS (t / A.ratio) p kc.2 })
      (Q := fun _ (x y : SCell d R) => y = ⟨x.s, fun i => -x.m i, x.store, x.sh, -x.ml, -x.mr, x.storeS⟩)
      (fun kc => by rcases kc with ⟨_ | p, c⟩ <;> simp [hms0]) ?_ kc
    rintro ⟨r, _ | p, c⟩ _ s s' rfl
    · have hd : ∀ k, cD A'.acc false (A'.rdx k) (fun j => -v k (c.shift k j)) =
          -cD A.acc false (A.rdx k) fun j => v k (c.shift k j) := fun k => cD_neg _ _ _ _
      have hm : ∀ k, (if r k = .mid then -s.m k else A'.pa false k (c k) * -s.m k +
          A'.pb false k (c k) * -cD A.acc false (A.rdx k) fun j => v k (c.shift k j)) =
          -(if r k = .mid then s.m k else A.pa false k (c k) * s.m k +
          A.pb false k (c k) * cD A.acc false (A.rdx k) fun j => v k (c.shift k j)) := fun k => by
        split_ifs
        · rfl
        · change A.pa false k (c k) * _ + A.pb false k (c k) * _ = _
          ring
      have hdv : ∀ (x y : R) k, (if r k = .mid then -x else -x + -y) =
          -(if r k = .mid then x else x + y) := fun x y k => by split_ifs <;> ring
      have hl : A'.lam = A.lam := rfl
      have hmu : A'.mu = A.mu := rfl
      have hs : ∀ (x : R) (y : Fin d → R), (∑ i, x * -y i) = -∑ i, x * y i := fun x y => by
        simp only [mul_neg, Finset.sum_neg_distrib]
      simp only [strBody, hdt, hd, hm, hdv, hl, hmu, hs]
      congr 1
      · funext i
        ring!
      · funext i
        by_cases h : saveN = true
        · rw [if_pos h, if_pos h]; ring
        · rw [if_neg h, if_neg h]
    · have hd1 : cD A'.acc true (A'.rdx p.1.2) (fun j => -v p.1.1 (c.shift p.1.2 j)) =
          -cD A.acc true (A.rdx p.1.2) fun j => v p.1.1 (c.shift p.1.2 j) := cD_neg _ _ _ _
      have hd2 : cD A'.acc true (A'.rdx p.1.1) (fun j => -v p.1.2 (c.shift p.1.1 j)) =
          -cD A.acc true (A.rdx p.1.1) fun j => v p.1.2 (c.shift p.1.1 j) := cD_neg _ _ _ _
      have hm : ∀ (x y : R) k, (if r k = .mid then -x else A'.pa true k (c k) * -x +
          A'.pb true k (c k) * -y) =
          -(if r k = .mid then x else A.pa true k (c k) * x + A.pb true k (c k) * y) := fun x y k => by
        split_ifs
        · rfl
        · change A.pa true k (c k) * _ + A.pb true k (c k) * _ = _
          ring
      have hdv : ∀ (x y : R) k, (if r k = .mid then -x else -x + -y) =
          -(if r k = .mid then x else x + y) := fun x y k => by split_ifs <;> ring
      have hl : A'.muS = A.muS := rfl
      simp only [strBody, hdt, hd1, hd2, hm, hdv, hl]
      congr 1
      · ring!
      · by_cases h : saveS = true
        · rw [if_pos h, if_pos h]; ring
        · rw [if_neg h, if_neg h]
  have ev : (fun k => addTo (fun c => -(vel (k, c)).v) (A'.srcV k) fun i => -fv k t i) =
      fun k c => -v k c := by
    funext k
    exact addTo_neg _ _ _
  have er : A'.ratio = A.ratio := rfl
  have e3 : A'.rcvP = A.rcvP := rfl
  have e4 : A'.rcvV = A.rcvV := rfl
  have e5 : A'.srcP = A.srcP := rfl
  unfold fStep
  simp only [FMem.reversed, Wavefields.reversed, er, ← hsS, ← hsB, ← hsN, ← hw, e1, ev, e2, ← hmv0, ← hvel,
    ← hv, ← hms0, ← hstr, e3, e4, e5, recordFrom_neg, update_neg, pick_neg]
  congr 1
  split_ifs
  · funext j i c
    by_cases h : j = t / A.ratio
    · subst h; simp
    · simp [Function.update_of_ne h]
  · rfl

theorem fInit_reversed (C : Cfg d np mp nv mv R) (w : Init d R) :
    C.negDt.fInit w.reversed = (C.fInit w).reversed := by
  have e1 : ∀ (u : Option (Fld d R)), C.negDt.createOrPad (u.map fun u c => -u c) =
      fun c => -C.createOrPad u c := by
    intro u
    change C.createOrPad _ = _
    cases u with
    | none => funext c; simp [Cfg.createOrPad]
    | some u =>
        funext c
        simp only [Cfg.createOrPad, Option.map_some]
        split_ifs <;> simp
  have e2 : ∀ L (u : Fld d R), C.negDt.zeroEdges L (fun c => -u c) = fun c => -C.zeroEdges L u c := by
    intro L u
    change C.zeroEdges L _ = _
    funext c
    simp only [Cfg.zeroEdges]
    split_ifs <;> simp
  have e3 : ∀ k h (u : Fld d R), C.negDt.zeroInterior k h (fun c => -u c) =
      fun c => -C.zeroInterior k h u c := by
    intro k h u
    change C.zeroInterior k h _ = _
    funext c
    simp only [Cfg.zeroInterior]
    split_ifs <;> simp
  simp only [Cfg.fInit, FMem.reversed, Wavefields.reversed, Cfg.prepare, Init.reversed, e1, e2, e3, neg_zero]
  rfl

def FResult.reversed (r : FResult d mp mv R) : FResult d mp mv R :=
  { out := r.out.reversed, rcdP := r.rcdP, rcdV := fun k t i => -r.rcdV k t i
    storeB := fun j i c => -r.storeB j i c, storeN := r.storeN, storeS := r.storeS
    events := r.events.map Event.reversed }

/-- Reversing the particle velocities and the velocity sources, the propagator with the opposite time step
gives the same with reversed particle velocities. -/
theorem Cfg.forward_negDt (C : Cfg d np mp nv mv R) (gl gm gb : Bool) (cb : Option ℕ) (nt : ℕ)
    (fp : ℕ → Fin np → R) (fv : (k : Fin d) → ℕ → Fin (nv k) → R) (w : Init d R) :
    C.negDt.forward gl gm gb cb nt fp (fun k t i => -fv k t i) w.reversed =
      (C.forward gl gm gb cb nt fp fv w).map FResult.reversed := by
  have er : C.negDt.ratio = C.ratio := rfl
  unfold Cfg.forward
  simp only [er]
  by_cases h1 : C.ratio = 0
  · simp only [h1, if_true, Except.map]
  by_cases h2 : 0 < nt ∧ cb.getD (nt / C.ratio) = 0
  · simp only [h1, if_false, if_pos h2, Except.map]
  simp only [h1, h2, if_false, Except.map, fInit_reversed]
  by_cases h3 : 0 < nt
  · have hcf : 0 < cb.getD (nt / C.ratio) := Nat.pos_of_ne_zero fun h => h2 ⟨h3, h⟩
    simp only [h3, if_true]
    rw [Driver.driveF_map (φ := FMem.reversed) (ψ := Event.reversed)
      (step := fStep C.fwdArgs gl gm gb fp fv) (view := fun step m => ⟨step, m.wf⟩)
      (fun t m => fStep_negDt C gl gm gb fp fv t m) (fun _ _ => rfl) _ _ hcf]
    cases cb <;> rfl
  · simp only [h3, if_false]
    cases cb <;> rfl

end Dw.Elastic
