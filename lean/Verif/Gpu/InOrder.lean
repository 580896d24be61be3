import Verif.Gpu.Races

/-!
# The commands of the CUDA functions executed in order

Executing the commands one by one has the effect of a recursion over the steps in which every
step of the backward pass gets the snapshot that the forward pass made at this step.
-/

namespace Dw.Gpu

variable {C Q X Y : Type*} [DecidableEq Q]

/-- Snapshots written by kernels that run one after the other; the last write counts. -/
def written : List (FKern C Q X) → C → Q → Option X
  | [], _, _ => none
  | κ :: ks, c, q => (written ks (κ.f c) q).or (κ.out c q)

/-- Effect of kernels that run one after the other. -/
def seqAll (fs : List (C → C)) (c : C) : C := fs.foldl (fun c f => f c) c

/-- Memory without streams, events and buffers: that of the kernels and one snapshot per stored
step. -/
structure Ideal (C Q X : Type*) where
  c : C
  snap : ℕ → Q → X

/-- One forward step: the kernels, with the snapshots of step `t` stored under `t / ratio` at
multiples of the ratio. -/
def Job.idealFwd (J : Job C Q X Y) (s : Ideal C Q X) (t : ℕ) : Ideal C Q X where
  c := seqAll (J.fpost t) (seqAll ((J.fkern t).map FKern.f) s.c)
  snap := fun k q =>
    if t % J.ratio = 0 ∧ k = t / J.ratio then
      match written (J.fkern t) s.c q with
      | some x => J.dec q (J.enc q x)
      | none => s.snap k q
    else s.snap k q

/-- One backward step. -/
def Job.idealBwd (J : Job C Q X Y) (snap : ℕ → Q → X) (c : C) (t : ℕ) : C :=
  seqAll (J.bpost t) (seqAll ((J.bkern t).map fun κ =>
    κ (if t % J.ratio = 0 then some (snap (t / J.ratio)) else none)) (seqAll (J.bpre t) c))

/-- A call of `forward`. -/
def Job.idealFwdCall (J : Job C Q X Y) (s : Ideal C Q X) (p : ℕ × ℕ) : Ideal C Q X :=
  (List.range p.2).foldl (fun s i => J.idealFwd s (p.1 + i)) s

/-- A call of `backward`. -/
def Job.idealBwdCall (J : Job C Q X Y) (snap : ℕ → Q → X) (c : C) (p : ℕ × ℕ) : C :=
  seqAll J.bfin ((List.range p.2).foldl (fun c i => J.idealBwd snap c (p.1 - 1 - i)) c)

/-- Forward calls, operations between, backward calls. -/
def Job.ideal (J : Job C Q X Y) (fcalls : List (ℕ × ℕ)) (mid : List (C → C))
    (bcalls : List (ℕ × ℕ)) (s : Ideal C Q X) : C :=
  let s' := fcalls.foldl J.idealFwdCall s
  bcalls.foldl (J.idealBwdCall s'.snap) (seqAll mid s'.c)

/-- All quantities are stored, and written in each store step. -/
structure Job.Complete (J : Job C Q X Y) : Prop where
  all : ∀ q, q ∈ J.qs
  writes : ∀ t, t % J.ratio = 0 → ∀ c q, (written (J.fkern t) c q).isSome

/-- The slots hold the snapshots. -/
def Rel (J : Job C Q X Y) (m : Mem C Q X Y) (s : Ideal C Q X) : Prop :=
  m.c = s.c ∧ ∀ k q, J.dec q (m.slot q k) = s.snap k q

theorem run_launches (J : Job C Q X Y) (s : Str) (os : List (Op C Q X)) (m : Mem C Q X Y) :
    run J.sem (os.map fun o => (.launch s o : Command C Q X)) m
      = os.foldl (fun m o => J.sem o m) m := by
  induction os generalizing m with
  | nil => rfl
  | cons a os ih => exact ih _

theorem fold_comp (J : Job C Q X Y) (fs : List (C → C)) (m : Mem C Q X Y) :
    (fs.map Op.comp).foldl (fun m o => J.sem o m) m = { m with c := seqAll fs m.c } := by
  induction fs generalizing m with
  | nil => rfl
  | cons f fs ih => exact ih _

theorem fold_kernW (J : Job C Q X Y) (ks : List (FKern C Q X)) (b : Bool) (m : Mem C Q X Y) :
    let m' := (ks.map fun κ : FKern C Q X => Op.kernW κ.f κ.out b).foldl (fun m o => J.sem o m) m
    m'.c = seqAll (ks.map FKern.f) m.c ∧ m'.slot = m.slot ∧
      ∀ q, m'.buf q b = (written ks m.c q).getD (m.buf q b) := by
  induction ks generalizing m with
  | nil => exact ⟨rfl, rfl, fun q => rfl⟩
  | cons κ ks ih =>
    obtain ⟨h1, h2, h3⟩ := ih (J.sem (Op.kernW κ.f κ.out b) m)
    refine ⟨h1, h2, fun q => (h3 q).trans ?_⟩
    simp only [Job.sem, if_true, written]
    rcases written ks (κ.f m.c) q with _ | x
    · simp
    · simp

theorem fold_kernR (J : Job C Q X Y) (ks : List (Option (Q → X) → C → C)) (b : Bool)
    (m : Mem C Q X Y) :
    (ks.map fun κ => (Op.kernR (fun x => κ (some x)) b : Op C Q X)).foldl (fun m o => J.sem o m) m
      = { m with c := seqAll (ks.map fun κ => κ (some fun q => m.buf q b)) m.c } := by
  induction ks generalizing m with
  | nil => rfl
  | cons κ ks ih => exact ih _

theorem fold_saveOps (J : Job C Q X Y) (k : ℕ) (b : Bool) (m : Mem C Q X Y) :
    let m' := (J.saveOps k b).foldl (fun m o => J.sem o m) m
    m'.c = m.c ∧ ∀ q k', m'.slot q k' = if q ∈ J.qs ∧ k' = k then J.enc q (m.buf q b)
      else m.slot q k' := by
  unfold Job.saveOps
  suffices h : ∀ (qs : List Q) (m : Mem C Q X Y),
      let m' := (qs.flatMap fun q => if J.staged then [Op.enc q b, Op.put q k]
        else [Op.save q k b]).foldl (fun m o => J.sem o m) m
      m'.c = m.c ∧ m'.buf = m.buf ∧ ∀ q k', m'.slot q k'
        = if q ∈ qs ∧ k' = k then J.enc q (m.buf q b) else m.slot q k' from
    ⟨(h J.qs m).1, (h J.qs m).2.2⟩
  intro qs
  induction qs with
  | nil => intro m; exact ⟨rfl, rfl, fun q k' => by simp⟩
  | cons a qs ih =>
    intro m
    rw [List.flatMap_cons, List.foldl_append]
    obtain ⟨h1, h2, h3⟩ := ih ((if J.staged then [Op.enc a b, Op.put a k]
        else [Op.save a k b]).foldl (fun m o => J.sem o m) m)
    refine ⟨h1.trans ?_, h2.trans ?_, fun q k' => (h3 q k').trans ?_⟩
    · split_ifs <;> rfl
    · split_ifs <;> rfl
    · by_cases hs : J.staged = true
      · simp only [hs, if_true, List.foldl_cons, List.foldl_nil, Job.sem, List.mem_cons]
        by_cases hq : q ∈ qs <;> by_cases hqa : q = a <;> by_cases hk : k' = k <;>
          simp [hq, hqa, hk]
      · simp only [hs, if_false, Bool.false_eq_true, List.foldl_cons, List.foldl_nil, Job.sem,
          List.mem_cons]
        by_cases hq : q ∈ qs <;> by_cases hqa : q = a <;> by_cases hk : k' = k <;>
          simp [hq, hqa, hk]

theorem fold_loadOps (J : Job C Q X Y) (k : ℕ) (b : Bool) (m : Mem C Q X Y) :
    let m' := (J.loadOps k b).foldl (fun m o => J.sem o m) m
    m'.c = m.c ∧ m'.slot = m.slot ∧ ∀ q ∈ J.qs, m'.buf q b = J.dec q (m.slot q k) := by
  unfold Job.loadOps
  suffices h : ∀ (qs : List Q) (m : Mem C Q X Y),
      let m' := (qs.flatMap fun q => if J.staged then [Op.get q k, Op.dec q b]
        else [Op.load q k b]).foldl (fun m o => J.sem o m) m
      m'.c = m.c ∧ m'.slot = m.slot ∧ ∀ q, m'.buf q b
        = if q ∈ qs then J.dec q (m.slot q k) else m.buf q b from
    ⟨(h J.qs m).1, (h J.qs m).2.1, fun q hq => by rw [(h J.qs m).2.2 q, if_pos hq]⟩
  intro qs
  induction qs with
  | nil => intro m; exact ⟨rfl, rfl, fun q => by simp⟩
  | cons a qs ih =>
    intro m
    rw [List.flatMap_cons, List.foldl_append]
    obtain ⟨h1, h2, h3⟩ := ih ((if J.staged then [Op.get a k, Op.dec a b]
        else [Op.load a k b]).foldl (fun m o => J.sem o m) m)
    refine ⟨h1.trans ?_, h2.trans ?_, fun q => (h3 q).trans ?_⟩
    · split_ifs <;> rfl
    · split_ifs <;> rfl
    · by_cases hs : J.staged = true
      · simp only [hs, if_true, List.foldl_cons, List.foldl_nil, Job.sem, List.mem_cons]
        by_cases hq : q ∈ qs <;> by_cases hqa : q = a <;> simp [hq, hqa]
      · simp only [hs, if_false, Bool.false_eq_true, List.foldl_cons, List.foldl_nil, Job.sem,
          List.mem_cons]
        by_cases hq : q ∈ qs <;> by_cases hqa : q = a <;> simp [hq, hqa]

/-- Records and waits have no effect. -/
theorem run_if_events (J : Job C Q X Y) (u : Bool) (P : List (Command C Q X))
    (h : ∀ c ∈ P, (∃ e s, c = .record e s) ∨ ∃ s e, c = .wait s e) (m : Mem C Q X Y) :
    run J.sem (if u then P else []) m = m := by
  cases u
  · rfl
  · simp only [if_true]
    induction P generalizing m with
    | nil => rfl
    | cons c P ih =>
      have hc : c.effect J.sem m = m := by
        rcases h c List.mem_cons_self with ⟨e, s, rfl⟩ | ⟨s, e, rfl⟩ <;> rfl
      change run J.sem P (c.effect J.sem m) = m
      rw [hc]
      exact ih (fun c hc => h c (List.mem_cons_of_mem _ hc)) m

theorem run_if_wait (J : Job C Q X Y) (u : Bool) (s : Str) (e : Ev) (m : Mem C Q X Y) :
    run J.sem (if u then [(.wait s e : Command C Q X)] else []) m = m :=
  run_if_events J u _ (by simp) m

theorem run_if_record (J : Job C Q X Y) (u : Bool) (s : Str) (e : Ev) (m : Mem C Q X Y) :
    run J.sem (if u then [(.record e s : Command C Q X)] else []) m = m :=
  run_if_events J u _ (by simp) m

theorem run_if_record_wait (J : Job C Q X Y) (u : Bool) (s s' : Str) (e e' : Ev)
    (m : Mem C Q X Y) :
    run J.sem (if u then [(.record e s : Command C Q X), .wait s' e'] else []) m = m :=
  run_if_events J u _ (by simp) m

theorem run_if_record_record (J : Job C Q X Y) (u : Bool) (s s' : Str) (e e' : Ev)
    (m : Mem C Q X Y) :
    run J.sem (if u then [(.record e s : Command C Q X), .record e' s'] else []) m = m :=
  run_if_events J u _ (by simp) m

theorem run_launches' (J : Job C Q X Y) (fs : List (C → C)) (m : Mem C Q X Y) :
    run J.sem (launches fs) m = { m with c := seqAll fs m.c } := by
  rw [launches_eq, run_launches, fold_comp]

omit [DecidableEq Q] in
theorem Job.store_iff (J : Job C Q X Y) (t : ℕ) : J.store t = true ↔ t % J.ratio = 0 := by
  simp [Job.store]

theorem Job.run_fwdStep (J : Job C Q X Y) (hJ : J.Complete) (call t : ℕ) {m : Mem C Q X Y}
    {s : Ideal C Q X} (h : Rel J m s) : Rel J (run J.sem (J.fwdStep call t) m) (J.idealFwd s t) := by
  simp only [Job.fwdStep, run_append]
  rw [run_if_wait, run_if_record_wait, run_if_record,
    run_launches', J.fwdKernels_eq, run_launches]
  by_cases hs : J.store t = true
  · have hs' := (J.store_iff t).mp hs
    simp only [hs, if_true]
    rw [J.saves_eq, run_launches]
    obtain ⟨k1, k2, k3⟩ := fold_kernW J (J.fkern t) (J.odd (J.fwdUses t) t) m
    generalize ((J.fkern t).map fun κ : FKern C Q X =>
      Op.kernW κ.f κ.out (J.odd (J.fwdUses t) t)).foldl (fun m o => J.sem o m) m = m1 at k1 k2 k3 ⊢
    obtain ⟨s1, s2⟩ := fold_saveOps J (t / J.ratio) (J.odd (J.fwdUses t) t) m1
    generalize (J.saveOps (t / J.ratio) (J.odd (J.fwdUses t) t)).foldl
      (fun m o => J.sem o m) m1 = m2 at s1 s2 ⊢
    refine ⟨?_, fun k q => ?_⟩
    · simp only [Job.idealFwd]
      rw [s1, k1, h.1]
    · simp only [Job.idealFwd, hs', true_and]
      rw [s2]
      by_cases hk : k = t / J.ratio
      · simp only [hk, hJ.all q, true_and, if_true]
        rw [k3, ← h.1]
        obtain ⟨x, hx⟩ := Option.isSome_iff_exists.mp (hJ.writes t hs' m.c q)
        rw [hx]
        rfl
      · simp only [hk, and_false, if_false]
        rw [k2]
        exact h.2 k q
  · have hs' : ¬ t % J.ratio = 0 := fun hh => hs ((J.store_iff t).mpr hh)
    simp only [hs, if_false, Bool.false_eq_true]
    have hmap : ((J.fkern t).map fun κ : FKern C Q X => (Op.comp κ.f : Op C Q X))
        = ((J.fkern t).map FKern.f).map Op.comp := by simp [Function.comp_def]
    rw [hmap, fold_comp]
    refine ⟨?_, fun k q => ?_⟩
    · simp only [Job.idealFwd, run, List.foldl_nil]
      rw [h.1]
    · simp only [Job.idealFwd, run, List.foldl_nil, hs', false_and, if_false]
      exact h.2 k q

theorem Job.run_fwdCall (J : Job C Q X Y) (hJ : J.Complete) (call : ℕ) (p : ℕ × ℕ)
    {m : Mem C Q X Y} {s : Ideal C Q X} (h : Rel J m s) :
    Rel J (run J.sem (J.fwdCall call p.1 p.2) m) (J.idealFwdCall s p) := by
  simp only [Job.fwdCall, run_append]
  rw [run_if_record_record, run_if_wait]
  unfold Job.idealFwdCall
  generalize p.2 = n
  induction n with
  | zero => exact h
  | succ n ih =>
    rw [List.range_succ, List.flatMap_append, run_append, List.foldl_append]
    simp only [List.flatMap_cons, List.flatMap_nil, List.append_nil, List.foldl_cons,
      List.foldl_nil]
    exact J.run_fwdStep hJ call _ ih

theorem Job.run_bwdStep (J : Job C Q X Y) (hJ : J.Complete) (call t : ℕ) {m : Mem C Q X Y}
    {s : Ideal C Q X} (h : Rel J m s) :
    Rel J (run J.sem (J.bwdStep call t) m) { s with c := J.idealBwd s.snap s.c t } := by
  simp only [Job.bwdStep, run_append]
  rw [run_if_wait, run_if_record_wait, run_if_record,
    run_launches', run_launches', J.bwdKernels_eq, run_launches]
  by_cases hs : J.store t = true
  · have hs' := (J.store_iff t).mp hs
    simp only [hs, if_true]
    rw [J.loads_eq, run_launches]
    obtain ⟨l1, l2, l3⟩ := fold_loadOps J (t / J.ratio) (J.odd (J.bwdUses t) t)
      { m with c := seqAll (J.bpre t) m.c }
    generalize (J.loadOps (t / J.ratio) (J.odd (J.bwdUses t) t)).foldl
      (fun m o => J.sem o m) { m with c := seqAll (J.bpre t) m.c } = m1 at l1 l2 l3 ⊢
    rw [fold_kernR]
    refine ⟨?_, fun k q => ?_⟩
    · simp only [Job.idealBwd, hs', if_true]
      have hb : (fun q => m1.buf q (J.odd (J.bwdUses t) t)) = s.snap (t / J.ratio) := by
        funext q
        rw [l3 q (hJ.all q)]
        exact h.2 _ q
      rw [hb, l1, h.1]
    · simp only
      rw [l2]
      exact h.2 k q
  · have hs' : ¬ t % J.ratio = 0 := fun hh => hs ((J.store_iff t).mpr hh)
    simp only [hs, if_false, Bool.false_eq_true]
    have hmap : ((J.bkern t).map fun κ => (Op.comp (κ none) : Op C Q X))
        = ((J.bkern t).map fun κ => κ none).map Op.comp := by simp [Function.comp_def]
    rw [hmap, fold_comp]
    refine ⟨?_, fun k q => ?_⟩
    · simp only [Job.idealBwd, run, List.foldl_nil, hs', if_false]
      rw [h.1]
    · exact h.2 k q

theorem Job.run_bwdCall (J : Job C Q X Y) (hJ : J.Complete) (call : ℕ) (p : ℕ × ℕ)
    {m : Mem C Q X Y} {s : Ideal C Q X} (h : Rel J m s) :
    Rel J (run J.sem (J.bwdCall call p.1 p.2) m) { s with c := J.idealBwdCall s.snap s.c p } := by
  simp only [Job.bwdCall, run_append]
  rw [run_if_record_record, run_launches']
  unfold Job.idealBwdCall
  generalize p.2 = n
  suffices hh : Rel J (run J.sem ((List.range n).flatMap fun i => J.bwdStep call (p.1 - 1 - i)) m)
      { s with c := (List.range n).foldl (fun c i => J.idealBwd s.snap c (p.1 - 1 - i)) s.c } by
    refine ⟨?_, hh.2⟩
    simp only
    rw [hh.1]
  induction n with
  | zero => exact h
  | succ n ih =>
    rw [List.range_succ, List.flatMap_append, run_append, List.foldl_append]
    simp only [List.flatMap_cons, List.flatMap_nil, List.append_nil, List.foldl_cons,
      List.foldl_nil]
    exact J.run_bwdStep hJ call _ ih

/-- The program executed in order is the recursion over the steps. -/
theorem Job.run_program (J : Job C Q X Y) (hJ : J.Complete) (fcalls : List (ℕ × ℕ))
    (mid : List (C → C)) (bcalls : List (ℕ × ℕ)) (m : Mem C Q X Y) :
    (run J.sem (J.program fcalls mid bcalls) m).c
      = J.ideal fcalls mid bcalls ⟨m.c, fun k q => J.dec q (m.slot q k)⟩ := by
  simp only [Job.program, run_append, Job.ideal]
  have hf : ∀ (l : List ((ℕ × ℕ) × ℕ)) (m : Mem C Q X Y) (s : Ideal C Q X), Rel J m s →
      Rel J (run J.sem (l.flatMap fun p => J.fwdCall p.2 p.1.1 p.1.2) m)
        ((l.map Prod.fst).foldl J.idealFwdCall s) := by
    intro l
    induction l with
    | nil => intro m s h; exact h
    | cons p l ih =>
      intro m s h
      rw [List.flatMap_cons, run_append, List.map_cons, List.foldl_cons]
      exact ih _ _ (J.run_fwdCall hJ p.2 p.1 h)
  have hb : ∀ (l : List ((ℕ × ℕ) × ℕ)) (m : Mem C Q X Y) (s : Ideal C Q X), Rel J m s →
      Rel J (run J.sem (l.flatMap fun p => J.bwdCall (fcalls.length + p.2) p.1.1 p.1.2) m)
        { s with c := (l.map Prod.fst).foldl (J.idealBwdCall s.snap) s.c } := by
    intro l
    induction l with
    | nil => intro m s h; exact h
    | cons p l ih =>
      intro m s h
      rw [List.flatMap_cons, run_append, List.map_cons, List.foldl_cons]
      exact ih _ _ (J.run_bwdCall hJ (fcalls.length + p.2) p.1 h)
  have h1 := hf fcalls.zipIdx m ⟨m.c, fun k q => J.dec q (m.slot q k)⟩ ⟨rfl, fun _ _ => rfl⟩
  rw [List.zipIdx_map_fst] at h1
  rw [run_launches']
  generalize run J.sem (fcalls.zipIdx.flatMap fun p => J.fwdCall p.2 p.1.1 p.1.2) m = m1 at h1 ⊢
  generalize fcalls.foldl J.idealFwdCall ⟨m.c, fun k q => J.dec q (m.slot q k)⟩ = s1 at h1 ⊢
  have h2 := hb bcalls.zipIdx { m1 with c := seqAll mid m1.c } { s1 with c := seqAll mid s1.c }
    ⟨congrArg (seqAll mid) h1.1, h1.2⟩
  rw [List.zipIdx_map_fst] at h2
  exact h2.1

end Dw.Gpu
