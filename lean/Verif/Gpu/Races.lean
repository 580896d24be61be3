import Verif.Gpu.Snapshots

/-!
# Absence of races in the exported CUDA functions

A call of `forward` or `backward` that starts with nothing pending for `stream_compute` launches
no operation that conflicts with one that may still be running, and ends with nothing pending,
provided that the last event of `forward` is that of the last snapshot (`Job.Covered`).
-/

namespace Dw.Gpu

variable {C Q X Y : Type*} [DecidableEq Q]

/-- The commands are safe and the pending operations afterwards satisfy `post`. -/
def SafeTo (J : Job C Q X Y) (K : Pend Str Ev (Op C Q X)) (P : List (Command C Q X))
    (post : Pend Str Ev (Op C Q X) → Prop) : Prop :=
  Safe J.sem K P ∧ post (K.after P)

theorem SafeTo.append {J : Job C Q X Y} {K : Pend Str Ev (Op C Q X)} {P R : List (Command C Q X)}
    {post : Pend Str Ev (Op C Q X) → Prop}
    (h : SafeTo J K P fun K' => SafeTo J K' R post) : SafeTo J K (P ++ R) post :=
  ⟨h.1.append h.2.1, by rw [Pend.after_append]; exact h.2.2⟩

theorem SafeTo.nil {J : Job C Q X Y} {K : Pend Str Ev (Op C Q X)}
    {post : Pend Str Ev (Op C Q X) → Prop} (h : post K) : SafeTo J K [] post := ⟨trivial, h⟩

theorem SafeTo.launches {J : Job C Q X Y} {K : Pend Str Ev (Op C Q X)} (s : Str)
    (os : List (Op C Q X)) {post : Pend Str Ev (Op C Q X) → Prop}
    (h : ∀ o', K.str s o' → ∀ o ∈ os, Comm J.sem o' o)
    (hpost : ∀ K' : Pend Str Ev (Op C Q X),
      (∀ s' o, K'.str s' o ↔ K.str s' o ∨ (s' ≠ s ∧ o ∈ os)) →
      (∀ e o, K'.ev e o ↔ K.ev e o ∨ o ∈ os) → post K') :
    SafeTo J K (os.map fun o => .launch s o) post :=
  ⟨safe_launches K s os h, hpost _ (after_launches K s os).1 (after_launches K s os).2⟩

theorem SafeTo.record {J : Job C Q X Y} {K : Pend Str Ev (Op C Q X)} (e : Ev) (s : Str)
    {P : List (Command C Q X)} {post : Pend Str Ev (Op C Q X) → Prop}
    (h : SafeTo J (K.next (.record e s)) P post) : SafeTo J K (.record e s :: P) post :=
  ⟨⟨trivial, h.1⟩, h.2⟩

theorem SafeTo.wait {J : Job C Q X Y} {K : Pend Str Ev (Op C Q X)} (s : Str) (e : Ev)
    {P : List (Command C Q X)} {post : Pend Str Ev (Op C Q X) → Prop}
    (h : SafeTo J (K.next (.wait s e)) P post) : SafeTo J K (.wait s e :: P) post :=
  ⟨⟨trivial, h.1⟩, h.2⟩

/-- A loop keeps an invariant. -/
theorem SafeTo.loop {J : Job C Q X Y} (body : ℕ → List (Command C Q X))
    (I : ℕ → Pend Str Ev (Op C Q X) → Prop)
    (hstep : ∀ i K, I i K → SafeTo J K (body i) (I (i + 1))) (n : ℕ)
    (K : Pend Str Ev (Op C Q X)) (h0 : I 0 K) :
    SafeTo J K ((List.range n).flatMap body) (I n) := by
  induction n with
  | zero => exact SafeTo.nil h0
  | succ n ih =>
    rw [List.range_succ, List.flatMap_append]
    refine SafeTo.append ⟨ih.1, ?_⟩
    simpa using hstep n _ ih.2

omit [DecidableEq Q] in
/-- Kernels of `forward` as operations. -/
theorem Job.fwdKernels_eq (J : Job C Q X Y) (t : ℕ) (b : Bool) :
    J.fwdKernels t b = ((J.fkern t).map fun κ : FKern C Q X =>
      if J.store t then Op.kernW κ.f κ.out b else Op.comp κ.f).map fun o => .launch .comp o := by
  simp [Job.fwdKernels, Function.comp_def]

omit [DecidableEq Q] in
theorem Job.bwdKernels_eq (J : Job C Q X Y) (t : ℕ) (b : Bool) :
    J.bwdKernels t b = ((J.bkern t).map fun κ : Option (Q → X) → C → C =>
      if J.store t then Op.kernR (fun x => κ (some x)) b else Op.comp (κ none)).map
      fun o => .launch .comp o := by
  simp [Job.bwdKernels, Function.comp_def]

omit [DecidableEq Q] in
theorem launches_eq (fs : List (C → C)) :
    (launches fs : List (Command C Q X)) = (fs.map Op.comp).map fun o => .launch .comp o := by
  simp [launches, Function.comp_def]

/-- Launches on `stream_compute` with nothing pending. -/
theorem SafeTo.quiet {J : Job C Q X Y} {K : Pend Str Ev (Op C Q X)} (hK : Quiet K)
    (os : List (Op C Q X)) : SafeTo J K (os.map fun o => .launch .comp o) Quiet := by
  refine SafeTo.launches _ _ (fun o' ho' => absurd ho' (hK o')) fun K' hs _ o ho => ?_
  rcases (hs _ _).mp ho with h | h
  · exact hK o h
  · exact h.1 rfl

/-- Invariant of the loop of `forward` with double buffering; `l` is the buffer of the last
recorded event `event_storage_done`. -/
structure FInv (call : ℕ) (l : Bool) (K : Pend Str Ev (Op C Q X)) : Prop where
  save : ∀ o, K.str .comp o → o.isSave
  buf : ∀ b o, K.str .comp o → K.ev (.storageDone call b) o → ¬ o.touches b
  stor : (∀ o, ¬ K.str .comp o) ∨ ∀ o, K.str (.stor call) o → o.isComp
  last : ∀ o, K.str .comp o → ¬ K.ev (.storageDone call l) o

theorem Job.fwdStep_safe (J : Job C Q X Y) (hd : J.dbl = true) (call t : ℕ) (l : Bool)
    (K : Pend Str Ev (Op C Q X)) (hK : FInv call l K) :
    SafeTo J K (J.fwdStep call t)
      (FInv call (if J.fwdUses t then J.odd (J.fwdUses t) t else l)) := by
  have hstor : J.storStream call = .stor call := by simp [Job.storStream, hd]
  simp only [Job.fwdStep, Job.fwdKernels_eq, Job.saves_eq, launches_eq, hstor]
  by_cases hu : J.fwdUses t = true
  · simp only [hu, if_true]
    generalize hb : J.odd true t = b
    refine SafeTo.append (SafeTo.append (SafeTo.append (SafeTo.append (SafeTo.append ?_))))
    refine SafeTo.wait _ _ (SafeTo.nil ?_)
    refine SafeTo.launches _ _ ?_ ?_
    · intro o' ho' o ho
      obtain ⟨h1, h2⟩ := ho'
      obtain ⟨κ, _, rfl⟩ := List.mem_map.mp ho
      split_ifs
      · exact comm_kernW J (hK.save _ h1) b (hK.buf b _ h1 (h2 rfl)) _ _
      · exact comm_comp J (hK.save _ h1) _
    intro K2 hs2 he2
    have hker : ∀ o ∈ (J.fkern t).map (fun κ : FKern C Q X =>
        if J.store t then Op.kernW κ.f κ.out b else Op.comp κ.f), o.isComp := by
      intro o ho
      obtain ⟨κ, _, rfl⟩ := List.mem_map.mp ho
      split_ifs <;> trivial
    have hc2 : ∀ o, K2.str .comp o → K.str .comp o ∧ K.ev (.storageDone call b) o := by
      intro o ho
      rcases (hs2 _ _).mp ho with h | h
      · exact ⟨h.1, h.2 rfl⟩
      · exact absurd rfl h.1
    refine SafeTo.record _ _ (SafeTo.wait _ _ (SafeTo.nil ?_))
    -- nothing is pending for the storage stream
    have hst3 : ∀ o, ((K2.next (.record (.computeDone call b) .comp)).next
        (.wait (.stor call) (.computeDone call b))).str (.stor call) o → False := by
      intro o ho
      obtain ⟨h1, h2⟩ := ho
      have h3 : K2.str .comp o := by
        rcases h2 rfl with h | h
        · exact h.2
        · exact absurd rfl h.1
      obtain ⟨h4, h5⟩ := hc2 o h3
      rcases hK.stor with h | h
      · exact h o h4
      · have h1' : K2.str (.stor call) o := h1
        rcases (hs2 _ _).mp h1' with h6 | h6
        · exact (hK.save o h4).not_comp (h o h6.1)
        · exact (hK.save o h4).not_comp (hker o h6.2)
    set K3 := (K2.next (.record (.computeDone call b) .comp)).next
        (.wait (.stor call) (.computeDone call b)) with hK3
    have hc3 : ∀ o, K3.str .comp o → K.str .comp o ∧ K.ev (.storageDone call b) o :=
      fun o ho => hc2 o ho.1
    have he3 : ∀ b' o, K3.ev (.storageDone call b') o → K.ev (.storageDone call b') o ∨ o.isComp := by
      intro b' o ho
      have ho' : K2.ev (.storageDone call b') o := by
        rcases ho with h | h
        · exact absurd h.1 (by simp)
        · exact h.2
      rcases (he2 _ _).mp ho' with h | h
      · exact Or.inl h
      · exact Or.inr (hker o h)
    clear_value K3
    -- the saves
    have hsaves : ∃ os : List (Op C Q X), (∀ o ∈ os, o.isSave ∧ ∀ b', b' ≠ b → ¬ o.touches b') ∧
        (if J.store t = true then ((J.saveOps (t / J.ratio) b).map fun o =>
          (.launch (.stor call) o : Command C Q X)) else []) = os.map fun o => .launch (.stor call) o := by
      by_cases hst : J.store t = true
      · exact ⟨J.saveOps (t / J.ratio) b, fun o ho => J.isSave_of_mem ho, by simp [hst]⟩
      · exact ⟨[], by simp, by simp [hst]⟩
    obtain ⟨os, hos, hoseq⟩ := hsaves
    rw [hoseq]
    refine SafeTo.launches _ _ (fun o' ho' => absurd ho' (hst3 o')) ?_
    intro K4 hs4 he4
    refine SafeTo.record _ _ (SafeTo.nil ?_)
    have hc4 : ∀ o, K4.str .comp o →
        (K.str .comp o ∧ K.ev (.storageDone call b) o) ∨ o ∈ os := by
      intro o ho
      rcases (hs4 _ _).mp ho with h | h
      · exact Or.inl (hc3 o h)
      · exact Or.inr h.2
    have hst4 : ∀ o, ¬ K4.str (.stor call) o := by
      intro o ho
      rcases (hs4 _ _).mp ho with h | h
      · exact hst3 o h
      · exact h.1 rfl
    have hsv4 : ∀ o, K4.str .comp o → o.isSave := by
      intro o ho
      rcases hc4 o ho with h | h
      · exact hK.save o h.1
      · exact (hos o h).1
    refine SafeTo.launches _ _ ?_ ?_
    · intro o' ho' o ho
      obtain ⟨f, _, rfl⟩ := List.mem_map.mp ho
      exact comm_comp J (hsv4 o' ho') f
    intro K6 hs6 he6
    have hpost : ∀ o ∈ (J.fpost t).map (Op.comp : (C → C) → Op C Q X), o.isComp := by
      intro o ho
      obtain ⟨f, _, rfl⟩ := List.mem_map.mp ho
      trivial
    have hc6 : ∀ o, K6.str .comp o → K4.str .comp o := by
      intro o ho
      rcases (hs6 _ _).mp ho with h | h
      · exact h
      · exact absurd rfl h.1
    have heb : ∀ o, K6.str .comp o → ¬ K6.ev (.storageDone call b) o := by
      intro o ho he
      rcases (he6 _ _).mp he with h | h
      · rcases h with h | h
        · exact hst4 o h.2
        · exact h.1 rfl
      · exact (hsv4 o (hc6 o ho)).not_comp (hpost o h)
    refine ⟨fun o ho => hsv4 o (hc6 o ho), ?_, Or.inr ?_, heb⟩
    · intro b' o ho he
      by_cases hbb : b' = b
      · subst hbb
        exact absurd he (heb o ho)
      · rcases hc4 o (hc6 o ho) with h | h
        · rcases (he6 _ _).mp he with h' | h'
          · have h'' : K4.ev (.storageDone call b') o := by
              rcases h' with h' | h'
              · exact absurd h'.1 (by simp [hbb])
              · exact h'.2
            rcases (he4 _ _).mp h'' with h3 | h3
            · rcases he3 b' o h3 with h4 | h4
              · exact hK.buf b' o h.1 h4
              · exact absurd h4 fun h4 => (hK.save o h.1).not_comp h4
            · exact (hos o h3).2 b' hbb
          · exact absurd (hpost o h') fun h4 => (hK.save o h.1).not_comp h4
        · exact (hos o h).2 b' hbb
    · intro o ho
      rcases (hs6 _ _).mp ho with h | h
      · exact absurd h (hst4 o)
      · exact hpost o h.2
  · have hns : J.store t = false := by
      by_contra h
      exact hu (by simp [Job.fwdUses, hd, (Bool.not_eq_false _).mp h])
    simp only [hu, hns, if_false, Bool.false_eq_true, List.nil_append, List.append_nil]
    rw [← List.map_append]
    have hcomp : ∀ o ∈ ((J.fkern t).map (fun κ : FKern C Q X => Op.comp κ.f)
        ++ (J.fpost t).map (Op.comp : (C → C) → Op C Q X)), ∃ f : C → C, o = .comp f := by
      intro o ho
      rcases List.mem_append.mp ho with h | h
      · obtain ⟨κ, _, rfl⟩ := List.mem_map.mp h
        exact ⟨_, rfl⟩
      · obtain ⟨f, _, rfl⟩ := List.mem_map.mp h
        exact ⟨_, rfl⟩
    refine SafeTo.launches _ _ ?_ ?_
    · intro o' ho' o ho
      obtain ⟨f, rfl⟩ := hcomp o ho
      exact comm_comp J (hK.save o' ho') f
    · intro K' hs he
      have hc : ∀ o, K'.str .comp o → K.str .comp o := fun o ho => by
        rcases (hs _ _).mp ho with h | h
        · exact h
        · exact absurd rfl h.1
      have hev : ∀ e o, K'.str .comp o → K'.ev e o → K.ev e o := by
        intro e o ho h
        rcases (he _ _).mp h with h | h
        · exact h
        · obtain ⟨f, rfl⟩ := hcomp o h
          exact absurd (hK.save _ (hc _ ho)) (by simp [Op.isSave])
      refine ⟨fun o ho => hK.save o (hc o ho), fun b o ho h => hK.buf b o (hc o ho) (hev _ o ho h), ?_,
        fun o ho h => hK.last o (hc o ho) (hev _ o ho h)⟩
      rcases hK.stor with h | h
      · exact Or.inl fun o ho => h o (hc o ho)
      · refine Or.inr fun o ho => ?_
        rcases (hs _ _).mp ho with h' | h'
        · exact h o h'
        · obtain ⟨f, rfl⟩ := hcomp o h'.2
          trivial

/-- Buffer of the last event `event_storage_done` that was recorded in `nt` steps. -/
def Job.lastUsed (J : Job C Q X Y) (start : ℕ) : ℕ → Option Bool
  | 0 => none
  | n + 1 =>
    if J.fwdUses (start + n) then some (J.odd (J.fwdUses (start + n)) (start + n))
    else J.lastUsed start n

/-- The event for which `forward` waits at its end is the one that was recorded last, or none
was recorded. -/
def Job.Covered (J : Job C Q X Y) (start nt : ℕ) : Prop :=
  ∀ l, J.lastUsed start nt = some l → J.lastOdd start nt = l

theorem Job.fwdCall_safe (J : Job C Q X Y) (call start nt : ℕ)
    (hcov : J.dbl = true → J.Covered start nt) (K : Pend Str Ev (Op C Q X)) (hK : Quiet K) :
    SafeTo J K (J.fwdCall call start nt) Quiet := by
  unfold Job.fwdCall
  by_cases hd : J.dbl = true
  · simp only [hd, if_true]
    refine SafeTo.append (SafeTo.append (SafeTo.record _ _ (SafeTo.record _ _ (SafeTo.nil ?_))))
    set K1 := (K.next (.record (.storageDone call false) (.stor call))).next
      (.record (.storageDone call true) (.stor call)) with hK1
    have hq : ∀ o, ¬ K1.str .comp o := fun o ho => hK o ho
    have key := SafeTo.loop (J := J) (fun i => J.fwdStep call (start + i))
      (fun n K => FInv call ((J.lastUsed start n).getD false) K ∧
        (J.lastUsed start n = none → Quiet K))
      (fun i K h => by
        have h1 := J.fwdStep_safe hd call (start + i) _ K h.1
        refine ⟨h1.1, ?_, ?_⟩
        · have h2 := h1.2
          simp only [Job.lastUsed]
          split_ifs at h2 ⊢ with hu
          · simpa using h2
          · simpa using h2
        · intro hn
          simp only [Job.lastUsed] at hn
          split_ifs at hn with hu
          have hns : J.store (start + i) = false := by
            by_contra h'
            exact hu (by simp [Job.fwdUses, hd, (Bool.not_eq_false _).mp h'])
          have hQ := h.2 hn
          simp only [Job.fwdStep, Job.fwdKernels_eq, launches_eq, hu, hns, if_false, Bool.false_eq_true, List.nil_append, List.append_nil]
          rw [← List.map_append]
          exact (SafeTo.quiet (J := J) hQ _).2)
      nt K1 ⟨⟨fun o ho => absurd ho (hq o), fun b o ho => absurd ho (hq o), Or.inl hq,
        fun o ho => absurd ho (hq o)⟩, fun _ => hq⟩
    refine ⟨key.1, SafeTo.wait _ _ (SafeTo.nil ?_)⟩
    obtain ⟨hF, hN⟩ := key.2
    intro o ho
    obtain ⟨h1, h2⟩ := ho
    rcases hl : J.lastUsed start nt with _ | l
    · exact hN hl o h1
    · have := hcov hd l hl
      rw [hl] at hF
      refine hF.last o h1 ?_
      have h3 := h2 rfl
      rw [this] at h3
      exact h3
  · simp only [hd, if_false, Bool.false_eq_true, List.nil_append, List.append_nil]
    refine SafeTo.loop (J := J) (fun i => J.fwdStep call (start + i)) (fun _ K => Quiet K) ?_ nt K hK
    intro i K hK
    have hu : J.fwdUses (start + i) = false := by simp [Job.fwdUses, hd]
    have hstor : J.storStream call = .comp := by simp [Job.storStream, hd]
    simp only [Job.fwdStep, Job.fwdKernels_eq, Job.saves_eq, launches_eq, hstor, hu, if_false, Bool.false_eq_true, List.nil_append, List.append_nil]
    by_cases hst : J.store (start + i) = true
    · simp only [hst, if_true]
      rw [← List.map_append, ← List.map_append]
      exact SafeTo.quiet hK _
    · simp only [hst, if_false, Bool.false_eq_true, List.append_nil]
      rw [← List.map_append]
      exact SafeTo.quiet hK _

/-- Invariant of the loop of `backward` with double buffering. -/
structure BInv (call : ℕ) (K : Pend Str Ev (Op C Q X)) : Prop where
  quiet : Quiet K
  cd : ∀ b o, K.ev (.computeDone call b) o → o.avoids b ∨ o.isLoad
  stor : (∀ b o, K.ev (.computeDone call b) o → o.isComp) ∨
    ∀ o, K.str (.stor call) o → o.isComp

omit [DecidableEq Q] in
theorem Op.avoids.isComp {b : Bool} {o : Op C Q X} (h : o.avoids b) : o.isComp := by
  cases o <;> simp_all [Op.avoids, Op.isComp]

theorem Job.bwdStep_safe (J : Job C Q X Y) (hd : J.dbl = true) (call t : ℕ)
    (K : Pend Str Ev (Op C Q X)) (hK : BInv call K) :
    SafeTo J K (J.bwdStep call t) (BInv call) := by
  have hstor : J.storStream call = .stor call := by simp [Job.storStream, hd]
  simp only [Job.bwdStep, Job.bwdKernels_eq, Job.loads_eq, launches_eq, hstor]
  have hcompmem : ∀ (fs : List (C → C)) (o : Op C Q X), o ∈ fs.map Op.comp → ∀ b, o.avoids b := by
    intro fs o ho b
    obtain ⟨f, _, rfl⟩ := List.mem_map.mp ho
    trivial
  by_cases hu : J.bwdUses t = true
  · simp only [hu, hd, if_true]
    generalize hb : J.odd true t = b
    refine SafeTo.append (SafeTo.append (SafeTo.append (SafeTo.append (SafeTo.append
      (SafeTo.append ?_)))))
    refine SafeTo.wait _ _ (SafeTo.nil ?_)
    set K1 := K.next (.wait (.stor call) (.computeDone call b)) with hK1
    have hc1 : ∀ o, ¬ K1.str .comp o := fun o ho => hK.quiet o ho.1
    have hs1 : ∀ o, K1.str (.stor call) o → o.avoids b := by
      intro o ho
      obtain ⟨h1, h2⟩ := ho
      have h3 := h2 rfl
      rcases hK.cd b o h3 with h | h
      · exact h
      · rcases hK.stor with h' | h'
        · exact absurd (h' b o h3) fun h4 => h.not_comp h4
        · exact absurd (h' o h1) fun h4 => h.not_comp h4
    have he1 : ∀ e o, K1.ev e o → K.ev e o := fun e o h => h
    clear_value K1
    refine SafeTo.launches _ _ (fun o' ho' => absurd ho' (hc1 o')) ?_
    intro K2 hs2 he2
    have hst2 : ∀ o, K2.str (.stor call) o → o.avoids b := by
      intro o ho
      rcases (hs2 _ _).mp ho with h | h
      · exact hs1 o h
      · exact hcompmem _ o h.2 b
    have hc2 : ∀ o, ¬ K2.str .comp o := by
      intro o ho
      rcases (hs2 _ _).mp ho with h | h
      · exact hc1 o h
      · exact h.1 rfl
    have hloads : ∃ os : List (Op C Q X), (∀ o ∈ os, o.isLoad ∧
          ∀ o' : Op C Q X, o'.avoids b → Comm J.sem o' o) ∧
        (if J.store t = true then ((J.loadOps (t / J.ratio) b).map fun o =>
          (.launch (.stor call) o : Command C Q X)) else []) = os.map fun o => .launch (.stor call) o := by
      by_cases hst : J.store t = true
      · exact ⟨J.loadOps (t / J.ratio) b, fun o ho => J.isLoad_of_mem ho, by simp [hst]⟩
      · exact ⟨[], by simp, by simp [hst]⟩
    obtain ⟨os, hos, hoseq⟩ := hloads
    rw [hoseq]
    refine SafeTo.launches _ _ (fun o' ho' o ho => (hos o ho).2 o' (hst2 o' ho')) ?_
    intro K3 hs3 he3
    have hst3 : ∀ o, K3.str (.stor call) o → o.avoids b := by
      intro o ho
      rcases (hs3 _ _).mp ho with h | h
      · exact hst2 o h
      · exact absurd rfl h.1
    have hc3 : ∀ o, K3.str .comp o → o.isLoad := by
      intro o ho
      rcases (hs3 _ _).mp ho with h | h
      · exact absurd h (hc2 o)
      · exact (hos o h.2).1
    refine SafeTo.record _ _ (SafeTo.wait _ _ (SafeTo.nil ?_))
    set K4 := (K3.next (.record (.storageDone call b) (.stor call))).next
      (.wait .comp (.storageDone call b)) with hK4
    have hc4 : ∀ o, ¬ K4.str .comp o := by
      intro o ho
      obtain ⟨h1, h2⟩ := ho
      have h3 : K3.str (.stor call) o := by
        rcases h2 rfl with h | h
        · exact h.2
        · exact absurd rfl h.1
      exact (hc3 o h1).not_comp (hst3 o h3).isComp
    have hst4 : ∀ o, K4.str (.stor call) o → o.isComp := fun o ho => (hst3 o ho.1).isComp
    have he4 : ∀ b' o, K4.ev (.computeDone call b') o → K3.ev (.computeDone call b') o := by
      intro b' o ho
      rcases ho with h | h
      · exact absurd h.1 (by simp)
      · exact h.2
    clear_value K4
    refine SafeTo.launches _ _ (fun o' ho' => absurd ho' (hc4 o')) ?_
    intro K5 hs5 he5
    have hker : ∀ o ∈ (J.bkern t).map (fun κ : Option (Q → X) → C → C =>
        if J.store t then Op.kernR (fun x => κ (some x)) b else Op.comp (κ none)),
        ∀ b', b' ≠ b → o.avoids b' := by
      intro o ho b' hbb
      obtain ⟨κ, _, rfl⟩ := List.mem_map.mp ho
      split_ifs
      · exact fun h => hbb h.symm
      · trivial
    have hkc : ∀ o ∈ (J.bkern t).map (fun κ : Option (Q → X) → C → C =>
        if J.store t then Op.kernR (fun x => κ (some x)) b else Op.comp (κ none)), o.isComp := by
      intro o ho
      exact (hker o ho (!b) (by simp)).isComp
    have hc5 : ∀ o, ¬ K5.str .comp o := by
      intro o ho
      rcases (hs5 _ _).mp ho with h | h
      · exact hc4 o h
      · exact h.1 rfl
    refine SafeTo.record _ _ (SafeTo.nil ?_)
    refine SafeTo.launches _ _ (fun o' ho' => absurd ho' (hc5 o')) ?_
    intro K7 hs7 he7
    refine ⟨?_, ?_, Or.inr ?_⟩
    · intro o ho
      rcases (hs7 _ _).mp ho with h | h
      · exact hc5 o h
      · exact h.1 rfl
    · intro b' o ho
      rcases (he7 _ _).mp ho with h | h
      · rcases h with h | h
        · exact absurd h.2 (hc5 o)
        · have hbb : b' ≠ b := fun hh => h.1 (by rw [hh])
          rcases (he5 _ _).mp h.2 with h' | h'
          · rcases (he3 _ _).mp (he4 b' o h') with h3 | h3
            · rcases (he2 _ _).mp h3 with h4 | h4
              · exact hK.cd b' o (he1 _ _ h4)
              · exact Or.inl (hcompmem _ o h4 b')
            · exact Or.inr (hos o h3).1
          · exact Or.inl (hker o h' b' hbb)
      · exact Or.inl (hcompmem _ o h b')
    · intro o ho
      rcases (hs7 _ _).mp ho with h | h
      · rcases (hs5 _ _).mp h with h' | h'
        · exact hst4 o h'
        · exact hkc o h'.2
      · exact (hcompmem _ o h.2 b).isComp
  · have hns : J.store t = false := by
      by_contra h
      exact hu (by simp [Job.bwdUses, hd, (Bool.not_eq_false _).mp h])
    simp only [hu, hns, hd, if_false, if_true, Bool.false_eq_true, List.nil_append, List.append_nil]
    generalize hb : J.odd false t = b
    have hker : ∀ o ∈ (J.bkern t).map (fun κ : Option (Q → X) → C → C =>
        (Op.comp (κ none) : Op C Q X)), ∀ b', o.avoids b' := by
      intro o ho b'
      obtain ⟨κ, _, rfl⟩ := List.mem_map.mp ho
      trivial
    refine SafeTo.append (SafeTo.append (SafeTo.append ?_))
    refine SafeTo.launches _ _ (fun o' ho' => absurd ho' (hK.quiet o')) ?_
    intro K2 hs2 he2
    have hc2 : ∀ o, ¬ K2.str .comp o := by
      intro o ho
      rcases (hs2 _ _).mp ho with h | h
      · exact hK.quiet o h
      · exact h.1 rfl
    refine SafeTo.launches _ _ (fun o' ho' => absurd ho' (hc2 o')) ?_
    intro K5 hs5 he5
    have hc5 : ∀ o, ¬ K5.str .comp o := by
      intro o ho
      rcases (hs5 _ _).mp ho with h | h
      · exact hc2 o h
      · exact h.1 rfl
    refine SafeTo.record _ _ (SafeTo.nil ?_)
    refine SafeTo.launches _ _ (fun o' ho' => absurd ho' (hc5 o')) ?_
    intro K7 hs7 he7
    have hcd : ∀ b' o, K7.ev (.computeDone call b') o →
        K.ev (.computeDone call b') o ∨ ∀ b'', o.avoids b'' := by
      intro b' o ho
      rcases (he7 _ _).mp ho with h | h
      · rcases h with h | h
        · exact absurd h.2 (hc5 o)
        · rcases (he5 _ _).mp h.2 with h' | h'
          · rcases (he2 _ _).mp h' with h4 | h4
            · exact Or.inl h4
            · exact Or.inr (hcompmem _ o h4)
          · exact Or.inr (hker o h')
      · exact Or.inr (hcompmem _ o h)
    refine ⟨?_, ?_, ?_⟩
    · intro o ho
      rcases (hs7 _ _).mp ho with h | h
      · exact hc5 o h
      · exact h.1 rfl
    · intro b' o ho
      rcases hcd b' o ho with h | h
      · exact hK.cd b' o h
      · exact Or.inl (h b')
    · rcases hK.stor with h | h
      · refine Or.inl fun b' o ho => ?_
        rcases hcd b' o ho with h' | h'
        · exact h b' o h'
        · exact (h' true).isComp
      · refine Or.inr fun o ho => ?_
        rcases (hs7 _ _).mp ho with h' | h'
        · rcases (hs5 _ _).mp h' with h' | h'
          · rcases (hs2 _ _).mp h' with h' | h'
            · exact h o h'
            · exact (hcompmem _ o h'.2 true).isComp
          · exact (hker o h'.2 true).isComp
        · exact (hcompmem _ o h'.2 true).isComp

theorem Job.bwdCall_safe (J : Job C Q X Y) (call start nt : ℕ) (K : Pend Str Ev (Op C Q X))
    (hK : Quiet K) : SafeTo J K (J.bwdCall call start nt) Quiet := by
  unfold Job.bwdCall
  rw [launches_eq]
  by_cases hd : J.dbl = true
  · simp only [hd, if_true]
    refine SafeTo.append (SafeTo.append (SafeTo.record _ _ (SafeTo.record _ _ (SafeTo.nil ?_))))
    set K1 := (K.next (.record (.computeDone call false) .comp)).next
      (.record (.computeDone call true) .comp) with hK1
    have hcd : ∀ b o, ¬ K1.ev (.computeDone call b) o := by
      intro b o ho
      rcases ho with h | h
      · exact hK o h.2
      · rcases h.2 with h' | h'
        · exact hK o h'.2
        · cases b
          · exact h'.1 rfl
          · exact h.1 rfl
    have key := SafeTo.loop (J := J) (fun i => J.bwdStep call (start - 1 - i))
      (fun _ K => BInv call K) (fun i K h => J.bwdStep_safe hd call _ K h) nt K1
      ⟨fun o ho => hK o ho, fun b o ho => absurd ho (hcd b o), Or.inl fun b o ho => absurd ho (hcd b o)⟩
    exact ⟨key.1, SafeTo.quiet key.2.quiet _⟩
  · simp only [hd, if_false, Bool.false_eq_true, List.nil_append]
    refine SafeTo.append ?_
    have key := SafeTo.loop (J := J) (fun i => J.bwdStep call (start - 1 - i)) (fun _ K => Quiet K)
      ?_ nt K hK
    · exact ⟨key.1, SafeTo.quiet key.2 _⟩
    intro i K hK
    have hu : J.bwdUses (start - 1 - i) = false := by simp [Job.bwdUses, hd]
    have hstor : J.storStream call = .comp := by simp [Job.storStream, hd]
    simp only [Job.bwdStep, Job.bwdKernels_eq, Job.loads_eq, launches_eq, hstor, hu, hd, if_false, Bool.false_eq_true, List.nil_append, List.append_nil]
    by_cases hst : J.store (start - 1 - i) = true
    · simp only [hst, if_true]
      rw [← List.map_append, ← List.map_append, ← List.map_append]
      exact SafeTo.quiet hK _
    · simp only [hst, if_false, Bool.false_eq_true, List.append_nil]
      rw [← List.map_append, ← List.map_append]
      exact SafeTo.quiet hK _

/-- Calls one after the other. -/
theorem SafeTo.calls {J : Job C Q X Y} {α : Type*} (call : α → List (Command C Q X)) :
    ∀ (as : List α), (∀ a ∈ as, ∀ K, Quiet K → SafeTo J K (call a) Quiet) →
      ∀ K, Quiet K → SafeTo J K (as.flatMap call) Quiet := by
  intro as
  induction as with
  | nil => intro _ K hK; exact SafeTo.nil hK
  | cons a as ih =>
    intro h K hK
    rw [List.flatMap_cons]
    have h1 := h a List.mem_cons_self K hK
    exact SafeTo.append ⟨h1.1, ih (fun a ha => h a (List.mem_cons_of_mem _ ha)) _ h1.2⟩

/-- The whole program is free of races. -/
theorem Job.program_safe (J : Job C Q X Y) (fcalls : List (ℕ × ℕ)) (mid : List (C → C))
    (bcalls : List (ℕ × ℕ)) (hcov : J.dbl = true → ∀ p ∈ fcalls, J.Covered p.1 p.2) :
    Safe J.sem Pend.none (J.program fcalls mid bcalls) := by
  unfold Job.program
  rw [launches_eq]
  have h : SafeTo J Pend.none _ Quiet := SafeTo.calls (J := J)
    (fun p : (ℕ × ℕ) × ℕ => J.fwdCall p.2 p.1.1 p.1.2) fcalls.zipIdx
    (fun p hp K hK => J.fwdCall_safe _ _ _ (fun hd => hcov hd p.1
      (List.fst_mem_of_mem_zipIdx hp)) K hK) Pend.none (fun o ho => ho)
  have h2 : SafeTo J Pend.none _ Quiet := SafeTo.append ⟨h.1, SafeTo.quiet h.2 (mid.map Op.comp)⟩
  exact (SafeTo.append ⟨h2.1, SafeTo.calls (J := J)
    (fun p : (ℕ × ℕ) × ℕ => J.bwdCall (fcalls.length + p.2) p.1.1 p.1.2) bcalls.zipIdx
    (fun p _ K hK => J.bwdCall_safe _ _ _ K hK) _ h2.2⟩).1

end Dw.Gpu
