import Verif.Storage.Exec

/-!
# Snapshots of one shot
-/

namespace Dw.Storage

open Classical
open Setup (InShape)

variable {d : ℕ} {R : Type*} [Field R] [LinearOrder R] [FloorRing R] {S : SCfg d}

/-- Snapshot as an array: zero where the kernel does not write. -/
noncomputable def SCfg.full (S : SCfg d) (v : Cell d → R) : Cell d → R :=
  fun c => if c ∈ S.written then v c else 0

/-- Bytes of one stored snapshot. -/
def SCfg.size (S : SCfg d) : ℕ := if S.comp then S.bytesComp else S.bytesUncomp

/-- Where the snapshot of shot `s` and step index `k` is kept. -/
def SCfg.kept (S : SCfg d) (x : St R) (s k : ℕ) : ℕ → Frag R :=
  if S.mode = .disk then fun j => ((x.file s)[k * S.size + j]?).getD .undef
  else if S.comp then fun j => x.store2 (S.off2 s (k * S.ratio) + j)
  else fun j => x.store1 (S.off1 s (k * S.ratio) + j)

/-- Bytes hold the values, in the format in use. -/
def SCfg.Holds (S : SCfg d) (vals : Cell d → R) (f : ℕ → Frag R) : Prop :=
  if S.comp then IsComp S.n S.sz vals f else IsRaw S.n S.sz vals f

theorem SCfg.Holds.bytes (hS : S.Ok) {vals : Cell d → R} {f g : ℕ → Frag R} (h : S.Holds vals f)
    (e : ∀ j < S.size, f j = g j) : S.Holds vals g := by
  unfold Holds size at *
  cases hc : S.comp
  · rw [hc] at h e
    simp only [Bool.false_eq_true, if_false] at h e ⊢
    intro c hcs j hj
    rw [← e _ (S.cell_byte_lt hcs hj)]
    exact h c hcs j hj
  · rw [hc] at h e
    simp only [if_true] at h e ⊢
    have hf := S.comp_fits hS hc
    refine ⟨fun b hb j hj => ?_, fun c hcs => ?_⟩
    · have := block_byte_lt hb hj
      rw [← e _ (by omega)]
      exact h.1 b hb j hj
    · have := idx_lt hcs
      unfold numEl at hf
      rw [← e _ (by omega)]
      exact h.2 c hcs

/-- Shot `s` has saved its first `K` snapshots. -/
structure FInv (S : SCfg d) (snap : ℕ → Cell d → R) (s K : ℕ) (x : St R) : Prop where
  saved : ∀ k < K, S.Holds (S.full (snap (k * S.ratio))) (S.kept x s k)
  zero : ∀ t, (S.mode = .device ∧ ¬S.comp → K ≤ t / S.ratio) → ∀ c, InShape S.n c → c ∉ S.written →
    ∀ j < S.sz, x.store1 (S.off1 s t + (idx S.n c * S.sz + j)) = .part 0 j
  len : S.mode = .disk → (x.file s).length = K * S.size

/-- The kernel's stores. -/
def snapWrites (S : SCfg d) (s t : ℕ) (v : Cell d → R) : List (ℕ × Frag R) :=
  S.written.flatMap fun c => valWrites S.sz (S.off1 s t + idx S.n c * S.sz) (v c)

omit [Field R] [LinearOrder R] [FloorRing R] in
theorem mem_snapWrites {s t : ℕ} {v : Cell d → R} {w : ℕ × Frag R} :
    w ∈ snapWrites S s t v ↔
      ∃ c ∈ S.written, ∃ j < S.sz, w = (S.off1 s t + (idx S.n c * S.sz + j), .part (v c) j) := by
  unfold snapWrites
  simp only [List.mem_flatMap, mem_valWrites, add_assoc]

omit [Field R] [LinearOrder R] [FloorRing R] in
theorem snapWrites_unwritten (hS : S.Ok) {s t t' : ℕ} (hs : s < S.nShots) {v : Cell d → R} {m : Mem R}
    {c : Cell d} (hc : InShape S.n c) (hw : c ∉ S.written) {j : ℕ} (hj : j < S.sz) :
    applyWrites m (snapWrites S s t v) (S.off1 s t' + (idx S.n c * S.sz + j)) =
      m (S.off1 s t' + (idx S.n c * S.sz + j)) := by
  refine applyWrites_of_not_mem fun w h e => ?_
  obtain ⟨c', hc', j', hj', rfl⟩ := mem_snapWrites.1 h
  obtain ⟨-, -, e'⟩ := S.off1_inj hs hs (S.cell_byte_lt (hS.written c' hc') hj')
    (S.cell_byte_lt hc hj) e
  obtain ⟨e2, -⟩ := slot_unique hj' hj e'
  exact hw (idx_inj (hS.written c' hc') hc e2 ▸ hc')

omit [LinearOrder R] [FloorRing R] in
theorem snapWrites_isRaw (hS : S.Ok) {s t : ℕ} (hs : s < S.nShots) {v : Cell d → R} {m : Mem R}
    (hz : ∀ c, InShape S.n c → c ∉ S.written → ∀ j < S.sz,
      m (S.off1 s t + (idx S.n c * S.sz + j)) = .part 0 j) :
    IsRaw S.n S.sz (S.full v) fun j => applyWrites m (snapWrites S s t v) (S.off1 s t + j) := by
  intro c hc j hj
  unfold SCfg.full
  split_ifs with hw
  · refine applyWrites_of_mem ⟨_, mem_snapWrites.2 ⟨c, hw, j, hj, rfl⟩, rfl⟩ ?_
    intro w h e
    obtain ⟨c', hc', j', hj', rfl⟩ := mem_snapWrites.1 h
    obtain ⟨e2, rfl⟩ := slot_unique hj' hj (Nat.add_left_cancel e)
    rw [idx_inj (hS.written c' hc') hc e2]
  · show applyWrites m _ (S.off1 s t + (idx S.n c * S.sz + j)) = _
    rw [snapWrites_unwritten hS hs hc hw hj]
    exact hz c hc hw j hj

theorem fwdIter_eq {junk : R} {v : Cell d → R} {s t : ℕ} {x : St R} (ht : t % S.ratio = 0) :
    fwdIter junk S v s t x =
      save junk S s t { x with store1 := applyWrites x.store1 (snapWrites S s t v) } := by
  unfold fwdIter
  rw [if_pos ht]
  rfl

/-- Saving one more snapshot. -/
theorem FInv.save (hS : S.Ok) {junk : R} {snap : ℕ → Cell d → R} {s K : ℕ} (hs : s < S.nShots)
    {x : St R} (h : FInv S snap s K x) (hfp : S.mode = .disk → ∃ p, x.fp s = some ⟨.ab, p⟩) :
    FInv S snap s (K + 1) (fwdIter junk S (snap (K * S.ratio)) s (K * S.ratio) x) ∧
      (fwdIter junk S (snap (K * S.ratio)) s (K * S.ratio) x).fp = x.fp := by
  have hdiv : ∀ k, k * S.ratio / S.ratio = k := fun k => Nat.mul_div_cancel _ hS.ratio
  rw [fwdIter_eq (Nat.mul_mod_left _ _)]
  set m := applyWrites x.store1 (snapWrites S s (K * S.ratio) (snap (K * S.ratio))) with hm
  have hraw : IsRaw S.n S.sz (S.full (snap (K * S.ratio))) fun j => m (S.off1 s (K * S.ratio) + j) :=
    snapWrites_isRaw hS hs fun c hc hw j hj => h.zero _ (fun _ => by rw [hdiv]) c hc hw j hj
  have hzero : ∀ t, (S.mode = .device ∧ ¬S.comp → K + 1 ≤ t / S.ratio) → ∀ c, InShape S.n c →
      c ∉ S.written → ∀ j < S.sz, m (S.off1 s t + (idx S.n c * S.sz + j)) = .part 0 j := by
    intro t ht c hc hw j hj
    rw [hm, snapWrites_unwritten hS hs hc hw hj]
    exact h.zero t (fun hd => by have := ht hd; omega) c hc hw j hj
  have hin : ∀ c, InShape S.n c →
      readVal junk S.sz m (S.off1 s (K * S.ratio) + idx S.n c * S.sz) = S.full (snap (K * S.ratio)) c :=
    fun c hc => readVal_of hS.sz fun j hj => by rw [add_assoc]; exact hraw c hc j hj
  have hcomp := fun (m2 : Mem R) => isComp_congr hin (compress_isComp (sz := S.sz) (n := S.n)
    (fun c => readVal junk S.sz m (S.off1 s (K * S.ratio) + idx S.n c * S.sz))
    (S.off2 s (K * S.ratio)) m2)
  set inp := fun c => readVal junk S.sz m (S.off1 s (K * S.ratio) + idx S.n c * S.sz) with hinp
  have hmode : S.mode ≠ .none := by rcases hS.mode with e | e <;> rw [e] <;> decide
  unfold Storage.save
  rw [if_neg hmode]
  simp only
  rw [← hinp]
  cases hc : S.comp
  · simp only [Bool.false_eq_true, if_false]
    rcases hS.mode with hd | hd
    · -- device, uncompressed
      rw [hd]
      simp only [reduceCtorEq, if_false, and_true]
      refine ⟨fun k hk => ?_, hzero, fun e => absurd (hd.symm.trans e) (by decide)⟩
      unfold SCfg.Holds SCfg.kept
      rw [hd, hc]
      simp only [reduceCtorEq, Bool.false_eq_true, if_false]
      rcases Nat.lt_succ_iff_lt_or_eq.1 hk with hk | rfl
      · have := h.saved k hk
        unfold SCfg.Holds SCfg.kept at this
        rw [hd, hc] at this
        simp only [reduceCtorEq, Bool.false_eq_true, if_false] at this
        intro c hcs j hj
        have e : m (S.off1 s (k * S.ratio) + (idx S.n c * S.sz + j)) =
            x.store1 (S.off1 s (k * S.ratio) + (idx S.n c * S.sz + j)) := by
          refine applyWrites_of_not_mem fun w hw e => ?_
          obtain ⟨c', hc', j', hj', rfl⟩ := mem_snapWrites.1 hw
          obtain ⟨-, e', -⟩ := S.off1_inj hs hs (S.cell_byte_lt (hS.written c' hc') hj')
            (S.cell_byte_lt hcs hj) e
          have := e' ⟨hd, by simp [hc]⟩
          rw [hdiv, hdiv] at this
          omega
        exact e.trans (this c hcs j hj)
      · exact hraw
    · -- disk, uncompressed
      rw [hd]
      simp only [if_true]
      obtain ⟨p, hp⟩ := hfp hd
      unfold saveDisk
      simp only [hp]
      have hl := h.len hd
      have hsz : S.size = S.bytesUncomp := by unfold SCfg.size; rw [hc]; rfl
      refine ⟨⟨fun k hk => ?_, hzero, fun _ => ?_⟩, trivial⟩
      · unfold SCfg.kept
        simp only [hd, if_true, Function.update_self, fseek, fwrite]
        rcases Nat.lt_succ_iff_lt_or_eq.1 hk with hk | rfl
        · refine (h.saved k hk).bytes hS fun j hj => ?_
          unfold SCfg.kept
          simp only [hd, if_true]
          have h1 : (k + 1) * S.size ≤ K * S.size := Nat.mul_le_mul_right _ hk
          rw [Nat.add_mul] at h1
          rw [List.getElem?_append_left (by omega)]
        · have : S.Holds (S.full (snap (k * S.ratio))) fun j => m (S.off1 s (k * S.ratio) + j) := by
            unfold SCfg.Holds
            rw [hc]
            exact hraw
          refine this.bytes hS fun j hj => ?_
          rw [List.getElem?_append_right (by omega)]
          rw [show k * S.size + j - (x.file s).length = j by omega]
          rw [List.getElem?_map, List.getElem?_range (by omega)]
          rfl
      · simp only [Function.update_self, fseek, fwrite, List.length_append, List.length_map,
          List.length_range]
        rw [hl, hsz]; ring
  · simp only [if_true]
    have hbytes := S.comp_fits hS hc
    rcases hS.mode with hd | hd
    · -- device, compressed
      rw [hd]
      simp only [reduceCtorEq, if_false, and_true]
      refine ⟨fun k hk => ?_, hzero, fun e => absurd (hd.symm.trans e) (by decide)⟩
      unfold SCfg.kept
      simp only [hd, hc, reduceCtorEq, if_false, if_true]
      rcases Nat.lt_succ_iff_lt_or_eq.1 hk with hk | rfl
      · refine (h.saved k hk).bytes hS fun j hj => ?_
        unfold SCfg.kept
        simp only [hd, hc, reduceCtorEq, if_false, if_true]
        refine (applyWrites_of_not_mem fun w hw e => ?_).symm
        obtain ⟨h1, h2⟩ := compressWrites_bound hw
        unfold SCfg.size at hj
        rw [hc] at hj
        simp only [if_true] at hj
        unfold SCfg.numEl at hbytes
        obtain ⟨-, e', -⟩ := S.off2_inj (t := K * S.ratio) (t' := k * S.ratio)
          (j := w.1 - S.off2 s (K * S.ratio)) hs hs (by omega) hj (by omega)
        have := e' ⟨hd, hc⟩
        rw [hdiv, hdiv] at this
        omega
      · unfold SCfg.Holds
        rw [hc]
        exact hcomp _
    · -- disk, compressed
      rw [hd]
      simp only [if_true]
      obtain ⟨p, hp⟩ := hfp hd
      unfold saveDisk
      simp only [hp]
      have hl := h.len hd
      have hsz : S.size = S.bytesComp := by unfold SCfg.size; rw [hc]; rfl
      refine ⟨⟨fun k hk => ?_, hzero, fun _ => ?_⟩, trivial⟩
      · unfold SCfg.kept
        simp only [hd, if_true, Function.update_self, fseek, fwrite]
        rcases Nat.lt_succ_iff_lt_or_eq.1 hk with hk | rfl
        · refine (h.saved k hk).bytes hS fun j hj => ?_
          unfold SCfg.kept
          simp only [hd, if_true]
          have h1 : (k + 1) * S.size ≤ K * S.size := Nat.mul_le_mul_right _ hk
          rw [Nat.add_mul] at h1
          rw [List.getElem?_append_left (by omega)]
        · have : S.Holds (S.full (snap (k * S.ratio))) fun j => applyWrites x.store2
              (compressWrites S.sz S.n inp (S.off2 s (k * S.ratio))) (S.off2 s (k * S.ratio) + j) := by
            unfold SCfg.Holds
            rw [hc]
            exact hcomp _
          refine this.bytes hS fun j hj => ?_
          rw [List.getElem?_append_right (by omega)]
          rw [show k * S.size + j - (x.file s).length = j by omega]
          rw [List.getElem?_map, List.getElem?_range (by omega)]
          rfl
      · simp only [Function.update_self, fseek, fwrite, List.length_append, List.length_map,
          List.length_range]
        rw [hl, hsz]; ring

/-! ### Forward calls -/

/-- Operations of one shot. -/
def shotOps (s : ℕ) (os : List Op) : List (ℕ × Op) := os.map fun o => (s, o)

omit [Field R] [LinearOrder R] [FloorRing R] in
theorem execAll_append (iter : ℕ → ℕ → St R → St R) (a b : List (ℕ × Op)) (x : St R) :
    execAll S iter (a ++ b) x = execAll S iter b (execAll S iter a x) := by
  unfold execAll
  rw [List.foldl_append]

/-- Iteration of the forward pass of all shots. -/
noncomputable def fwdStep (junk : R) (S : SCfg d) (snap : ℕ → ℕ → Cell d → R) : ℕ → ℕ → St R → St R :=
  fun s t => fwdIter junk S (snap s t) s t

theorem FInv.call (hS : S.Ok) {junk : R} {snap : ℕ → ℕ → Cell d → R} {s K l : ℕ} (hs : s < S.nShots)
    {x : St R} (h : FInv S (snap s) s K x) :
    FInv S (snap s) s (K + l)
      (execAll S (fwdStep junk S snap) (shotOps s (fwdCall (K * S.ratio) (l * S.ratio))) x) := by
  unfold fwdCall shotOps
  rw [List.map_append, List.map_append, execAll_append, execAll_append]
  simp only [List.map_cons, List.map_nil, List.map_map]
  -- after opening the file
  obtain ⟨x1, hx1⟩ : ∃ x1, execAll S (fwdStep junk S snap) [(s, Op.fopen .ab)] x = x1 := ⟨_, rfl⟩
  have h1 : FInv S (snap s) s K x1 ∧ (S.mode = .disk → ∃ p, x1.fp s = some ⟨.ab, p⟩) := by
    rw [← hx1]
    simp only [execAll, List.foldl_cons, List.foldl_nil, exec]
    split_ifs with hd
    · refine ⟨⟨fun k hk => ?_, h.zero, fun _ => ?_⟩, fun _ => ⟨0, by simp⟩⟩
      · have := h.saved k hk
        unfold SCfg.kept at this ⊢
        simpa [hd, fopenContent] using this
      · simpa [fopenContent] using h.len hd
    · exact ⟨h, fun e => absurd e hd⟩
  rw [hx1]
  have key : ∀ i, FInv S (snap s) s (K + (i + S.ratio - 1) / S.ratio)
        (execAll S (fwdStep junk S snap)
          ((List.range i).map ((fun o => (s, o)) ∘ fun i => Op.iter (K * S.ratio + i))) x1) ∧
      (S.mode = .disk → ∃ p, (execAll S (fwdStep junk S snap)
          ((List.range i).map ((fun o => (s, o)) ∘ fun i => Op.iter (K * S.ratio + i))) x1).fp s =
            some ⟨.ab, p⟩) := by
    intro i
    induction i with
    | zero =>
        have : (0 + S.ratio - 1) / S.ratio = 0 := Nat.div_eq_of_lt (by have := hS.ratio; omega)
        rw [this]
        exact h1
    | succ i ih =>
        rw [List.range_succ, List.map_append, execAll_append]
        set y := execAll S (fwdStep junk S snap)
          ((List.range i).map ((fun o => (s, o)) ∘ fun i => Op.iter (K * S.ratio + i))) x1
        simp only [List.map_cons, List.map_nil, Function.comp, execAll, List.foldl_cons, List.foldl_nil,
          exec]
        have hr := hS.ratio
        by_cases hi : i % S.ratio = 0
        · obtain ⟨q, rfl⟩ : ∃ q, i = q * S.ratio := ⟨i / S.ratio, by
            have := Nat.div_add_mod i S.ratio; rw [Nat.mul_comm]; omega⟩
          have e1 : (q * S.ratio + S.ratio - 1) / S.ratio = q := by
            rw [show q * S.ratio + S.ratio - 1 = S.ratio * q + (S.ratio - 1) by rw [Nat.mul_comm]; omega]
            rw [Nat.mul_add_div hr, Nat.div_eq_of_lt (by omega)]; rfl
          have e2 : (q * S.ratio + 1 + S.ratio - 1) / S.ratio = q + 1 := by
            rw [show q * S.ratio + 1 + S.ratio - 1 = (q + 1) * S.ratio by rw [Nat.add_mul]; omega]
            exact Nat.mul_div_cancel _ hr
          rw [e1] at ih
          rw [e2, ← Nat.add_mul]
          obtain ⟨h2, h3⟩ := ih.1.save hS (junk := junk) hs ih.2
          refine ⟨h2, fun hd => ?_⟩
          show ∃ p, (fwdIter junk S (snap s ((K + q) * S.ratio)) s ((K + q) * S.ratio) y).fp s = _
          rw [h3]
          exact ih.2 hd
        · have e1 : (i + 1 + S.ratio - 1) / S.ratio = (i + S.ratio - 1) / S.ratio := by
            have h2 := Nat.div_add_mod i S.ratio
            have h3 := Nat.mod_lt i hr
            have a1 : (i + 1 + S.ratio - 1) / S.ratio = i / S.ratio + 1 := by
              rw [show i + 1 + S.ratio - 1 = i + S.ratio by omega, Nat.add_div_right _ hr]
            have a2 : (i + S.ratio - 1) / S.ratio = i / S.ratio + 1 := by
              rw [show i + S.ratio - 1 = (i - 1) + S.ratio by omega, Nat.add_div_right _ hr]
              congr 1
              have h4 : i - 1 = S.ratio * (i / S.ratio) + (i % S.ratio - 1) := by omega
              have h5 : (i % S.ratio - 1) / S.ratio = 0 := Nat.div_eq_of_lt (by omega)
              rw [h4, Nat.mul_add_div hr, h5]; rfl
            rw [a1, a2]
          rw [e1]
          have : fwdStep junk S snap s (K * S.ratio + i) y = y := by
            unfold fwdStep fwdIter
            rw [if_neg]
            rw [Nat.mul_comm, Nat.mul_add_mod]
            exact hi
          rw [this]
          exact ih
  obtain ⟨h2, -⟩ := key (l * S.ratio)
  have e : (l * S.ratio + S.ratio - 1) / S.ratio = l := by
    have hr := hS.ratio
    rw [show l * S.ratio + S.ratio - 1 = S.ratio * l + (S.ratio - 1) by rw [Nat.mul_comm]; omega]
    rw [Nat.mul_add_div hr, Nat.div_eq_of_lt (by omega)]; rfl
  rw [e] at h2
  exact ⟨h2.saved, h2.zero, h2.len⟩

/-- Chunks that follow each other from `a` to `b`. -/
def Consecutive : ℕ → List (ℕ × ℕ) → ℕ → Prop
  | a, [], b => a = b
  | a, ch :: cs, b => ch.1 = a ∧ Consecutive (a + ch.2) cs b

theorem FInv.prog (hS : S.Ok) {junk : R} {snap : ℕ → ℕ → Cell d → R} {s : ℕ} (hs : s < S.nShots) :
    ∀ {K N : ℕ} {cs : List (ℕ × ℕ)} {x : St R}, Consecutive K cs N → FInv S (snap s) s K x →
      FInv S (snap s) s N (execAll S (fwdStep junk S snap) (shotOps s (fwdProg S cs)) x)
  | K, N, [], x, hc, h => by cases hc; exact h
  | K, N, ch :: cs, x, hc, h => by
      unfold fwdProg shotOps
      rw [List.flatMap_cons, List.map_append, execAll_append, hc.1]
      exact FInv.prog hS hs hc.2 (h.call hS hs)

omit [LinearOrder R] [FloorRing R] in
theorem init_bytes {sz a c j : ℕ} (hj : j < sz) : (St.init (R := R) sz).store1 (a * sz + (c * sz + j)) =
    .part 0 j := by
  unfold St.init
  simp only
  rw [← add_assoc, ← Nat.add_mul, Nat.mul_comm, Nat.mul_add_mod, Nat.mod_eq_of_lt hj]

theorem FInv.init (S : SCfg d) (snap : ℕ → Cell d → R) (s : ℕ) :
    FInv S snap s 0 (St.init S.sz) :=
  ⟨fun k hk => by omega, fun t _ c _ _ j hj => init_bytes hj, fun _ => by simp [St.init]⟩

/-! ### Backward calls -/

/-- A backward operation list that only reads steps below `N` and only with the file open. -/
def OkOps (S : SCfg d) (N : ℕ) : Bool → List Op → Prop
  | _, [] => True
  | _, .fopen m :: os => m = .rb ∧ OkOps S N true os
  | o, .iter t :: os => o = true ∧ t < N * S.ratio ∧ OkOps S N o os
  | _, .fclose :: os => OkOps S N false os

theorem OkOps.prefix {N : ℕ} : ∀ {o : Bool} {a b : List Op}, OkOps S N o (a ++ b) → OkOps S N o a
  | _, [], _, _ => trivial
  | _, .fopen _ :: a, _, h => ⟨h.1, OkOps.prefix (a := a) h.2⟩
  | _, .iter _ :: a, _, h => ⟨h.1, h.2.1, OkOps.prefix (a := a) h.2.2⟩
  | _, .fclose :: a, _, h => OkOps.prefix (a := a) h

theorem okOps_iters {N : ℕ} {rest : List Op} (hr : OkOps S N true rest) : ∀ (ts : List ℕ),
    (∀ t ∈ ts, t < N * S.ratio) → OkOps S N true (ts.map Op.iter ++ rest)
  | [], _ => hr
  | t :: ts, h => ⟨rfl, h t List.mem_cons_self,
      okOps_iters hr ts fun t' h' => h t' (List.mem_cons_of_mem _ h')⟩

theorem okOps_prog {N : ℕ} : ∀ {o : Bool} {cs : List (ℕ × ℕ)},
    (∀ ch ∈ cs, ch.2 ≤ ch.1 ∧ ch.1 ≤ N) → OkOps S N o (bwdProg S cs)
  | _, [], _ => trivial
  | o, ch :: cs, h => by
      unfold bwdProg
      rw [List.flatMap_cons]
      unfold bwdCall
      rw [List.append_assoc, List.append_assoc]
      refine ⟨rfl, ?_⟩
      show OkOps S N true ((List.range (ch.2 * S.ratio)).map (fun i => Op.iter (ch.1 * S.ratio - 1 - i)) ++
        ([Op.fclose] ++ bwdProg S cs))
      have e : (List.range (ch.2 * S.ratio)).map (fun i => Op.iter (ch.1 * S.ratio - 1 - i)) =
          ((List.range (ch.2 * S.ratio)).map fun i => ch.1 * S.ratio - 1 - i).map Op.iter := by
        rw [List.map_map]; rfl
      rw [e]
      refine okOps_iters ?_ _ ?_
      · show OkOps S N false (bwdProg S cs)
        exact okOps_prog fun ch' h' => h ch' (List.mem_cons_of_mem _ h')
      · intro t ht
        simp only [List.mem_map, List.mem_range] at ht
        obtain ⟨i, hi, rfl⟩ := ht
        obtain ⟨h1, h2⟩ := h ch List.mem_cons_self
        have h3 := Nat.mul_le_mul_right S.ratio h1
        have h4 := Nat.mul_le_mul_right S.ratio h2
        omega

/-- Shot `s` can load any of its first `N` snapshots. -/
structure BInv (S : SCfg d) (snap : ℕ → Cell d → R) (s N : ℕ) (x : St R) : Prop where
  saved : ∀ k < N, S.Holds (S.full (snap (k * S.ratio))) (S.kept x s k)
  len : S.mode = .disk → (x.file s).length = N * S.size

/-- Values restored from a snapshot. -/
noncomputable def SCfg.restored (S : SCfg d) (junkQ : ℕ) (v : Cell d → R) : Cell d → R :=
  if S.comp then fun c => restore junkQ (S.full v c) (maxAbs S.n (S.full v) (blockOf c)) else S.full v

omit [Field R] [LinearOrder R] [FloorRing R] in
/-- `fread` of a whole snapshot. -/
theorem fread_bytes {content : List (Frag R)} {fp : Fp} {off len pos : ℕ} {m : Mem R}
    (h : pos + len ≤ content.length) {j : ℕ} (hj : j < len) :
    applyWrites m ((fread (fseek fp pos) content len).zipIdx.map fun p => (off + p.2, p.1)) (off + j) =
      (content[pos + j]?).getD .undef := by
  have hlen : (fread (fseek fp pos) content len).length = len := by
    simp only [fread, fseek, List.length_take, List.length_drop]; omega
  have hget : ∀ i < len, (fread (fseek fp pos) content len)[i]? = content[pos + i]? := by
    intro i hi
    simp only [fread, fseek]
    rw [List.getElem?_take_of_lt hi, List.getElem?_drop]
  have hsome : ∃ y, content[pos + j]? = some y := ⟨_, List.getElem?_eq_getElem (by omega)⟩
  obtain ⟨y, hy⟩ := hsome
  rw [hy]
  refine applyWrites_of_mem ⟨(off + j, y), ?_, rfl⟩ ?_
  · rw [List.mem_map]
    exact ⟨(y, j), by rw [List.mem_zipIdx_iff_getElem?, hget j hj, hy], rfl⟩
  · intro w hw e
    rw [List.mem_map] at hw
    obtain ⟨⟨z, i⟩, hz, rfl⟩ := hw
    have hi : i = j := by simp only at e; omega
    subst hi
    rw [List.mem_zipIdx_iff_getElem?, hget i hj, hy] at hz
    simpa using hz.symm

theorem BInv.load (hS : S.Ok) {junk : R} {junkQ : ℕ} {snap : ℕ → Cell d → R} {s N k : ℕ}
    {x : St R} (h : BInv S snap s N x) (hk : k < N)
    (hfp : S.mode = .disk → ∃ p, x.fp s = some ⟨.rb, p⟩) :
    BInv S snap s N (load junk junkQ S s (k * S.ratio) x) ∧
    (load junk junkQ S s (k * S.ratio) x).fp = x.fp ∧
    IsRaw S.n S.sz (S.restored junkQ (snap (k * S.ratio)))
      fun j => (load junk junkQ S s (k * S.ratio) x).store1 (S.off1 s (k * S.ratio) + j) := by
  have hdiv : k * S.ratio / S.ratio = k := Nat.mul_div_cancel _ hS.ratio
  rw [load_eq hS]
  have hsv := h.saved k hk
  have hlen : S.mode = .disk → k * S.size + S.size ≤ (x.file s).length := by
    intro hd
    rw [h.len hd]
    have : (k + 1) * S.size ≤ N * S.size := Nat.mul_le_mul_right _ hk
    rwa [Nat.add_mul, Nat.one_mul] at this
  -- after reading the file
  obtain ⟨y, hy⟩ : ∃ y, (if S.mode = .disk then loadDisk S s (k * S.ratio) x else x) = y := ⟨_, rfl⟩
  have hy1 : y.file = x.file ∧ y.fp = x.fp ∧ (S.mode = .device → y.store2 = x.store2 ∧
      (S.comp = false → y.store1 = x.store1)) ∧
      S.Holds (S.full (snap (k * S.ratio))) (if S.comp then fun j => y.store2 (S.off2 s (k * S.ratio) + j)
        else fun j => y.store1 (S.off1 s (k * S.ratio) + j)) := by
    rw [← hy]
    rcases hS.mode with hd | hd
    · rw [hd]
      simp only [reduceCtorEq, if_false]
      refine ⟨trivial, trivial, fun _ => ⟨trivial, fun _ => trivial⟩, ?_⟩
      unfold SCfg.kept at hsv
      rw [hd] at hsv
      exact hsv
    · obtain ⟨p, hp⟩ := hfp hd
      have hl := hlen hd
      rw [hd]
      simp only [if_true]
      unfold loadDisk
      rw [hp]
      unfold SCfg.kept at hsv
      rw [hd] at hsv
      simp only [if_true] at hsv
      cases hc : S.comp
      · have hsz : S.size = S.bytesUncomp := by unfold SCfg.size; rw [hc]; rfl
        refine ⟨rfl, rfl, fun e => absurd e (by decide), hsv.bytes hS fun j hj => ?_⟩
        simp only [Bool.false_eq_true, if_false, hdiv]
        rw [hsz] at hl hj ⊢
        rw [fread_bytes hl hj]
      · have hsz : S.size = S.bytesComp := by unfold SCfg.size; rw [hc]; rfl
        refine ⟨rfl, rfl, fun e => absurd e (by decide), hsv.bytes hS fun j hj => ?_⟩
        simp only [if_true, hdiv]
        rw [hsz] at hl hj ⊢
        rw [fread_bytes hl hj]
  rw [hy]
  obtain ⟨e1, e2, e3, e4⟩ := hy1
  have keep : ∀ z : St R, z.file = x.file →
      (S.mode = .device → z.store2 = x.store2 ∧ (S.comp = false → z.store1 = x.store1)) →
      BInv S snap s N z := by
    intro z hz1 hz2
    refine ⟨fun k hk => ?_, fun hd => by rw [hz1]; exact h.len hd⟩
    have := h.saved k hk
    unfold SCfg.kept at this ⊢
    rcases hS.mode with hd | hd
    · obtain ⟨h1, h2⟩ := hz2 hd
      rw [hd] at this ⊢
      simp only [reduceCtorEq, if_false] at this ⊢
      cases hc : S.comp
      · rw [hc] at this
        rw [h2 hc]
        exact this
      · rw [hc] at this
        rw [h1]
        exact this
    · rw [hd] at this ⊢
      simp only [if_true] at this ⊢
      rw [hz1]
      exact this
  unfold loadRest
  unfold SCfg.Holds at e4
  cases hc : S.comp
  · rw [hc] at e4
    simp only [Bool.false_eq_true, if_false] at e4 ⊢
    refine ⟨keep y e1 fun hd => ⟨(e3 hd).1, fun _ => (e3 hd).2 hc⟩, e2, ?_⟩
    unfold SCfg.restored
    rw [hc]
    exact e4
  · rw [hc] at e4
    simp only [if_true] at e4 ⊢
    refine ⟨keep _ e1 fun hd => ⟨(e3 hd).1, fun e => absurd (hc.symm.trans e) (by decide)⟩, e2, ?_⟩
    unfold SCfg.restored
    rw [hc]
    exact decompress_isRaw hS.sz e4 _

/-- Iteration of the backward pass of all shots. -/
noncomputable def bwdStep (junk : R) (junkQ : ℕ) (S : SCfg d) : ℕ → ℕ → St R → St R :=
  fun s t => bwdIter junk junkQ S s t

theorem BInv.ops (hS : S.Ok) {junk : R} {junkQ : ℕ} {snap : ℕ → Cell d → R} {s N : ℕ} :
    ∀ {os : List Op} {o : Bool} {x : St R}, OkOps S N o os → BInv S snap s N x →
      (S.mode = .disk → o = true → ∃ p, x.fp s = some ⟨.rb, p⟩) →
      BInv S snap s N (execAll S (bwdStep junk junkQ S) (shotOps s os) x) ∧
      ∀ os' t, os = os' ++ [.iter t] → t % S.ratio = 0 →
        IsRaw S.n S.sz (S.restored junkQ (snap t)) fun j =>
          (execAll S (bwdStep junk junkQ S) (shotOps s os) x).store1 (S.off1 s t + j)
  | [], o, x, _, h, _ => ⟨h, fun os' t e => by simp at e⟩
  | .fopen m :: os, o, x, ho, h, hfp => by
      obtain ⟨rfl, ho⟩ := ho
      have h1 : BInv S snap s N (exec S (bwdStep junk junkQ S) (s, .fopen .rb) x) ∧
          (S.mode = .disk → ∃ p, (exec S (bwdStep junk junkQ S) (s, .fopen .rb) x).fp s = some ⟨.rb, p⟩) := by
        simp only [exec]
        split_ifs with hd
        · refine ⟨⟨fun k hk => ?_, fun _ => ?_⟩, fun _ => ⟨0, by simp⟩⟩
          · have := h.saved k hk
            unfold SCfg.kept at this ⊢
            simpa [hd, fopenContent] using this
          · simpa [fopenContent] using h.len hd
        · exact ⟨h, fun e => absurd e hd⟩
      obtain ⟨h2, h3⟩ := BInv.ops hS (junk := junk) (junkQ := junkQ) ho h1.1 fun hd _ => h1.2 hd
      refine ⟨h2, fun os' t e ht => ?_⟩
      cases os' with
      | nil => simp at e
      | cons o' os' =>
          simp only [List.cons_append, List.cons.injEq] at e
          exact h3 os' t e.2 ht
  | .iter t' :: os, o, x, ho, h, hfp => by
      obtain ⟨rfl, hlt, ho⟩ := ho
      have hr := hS.ratio
      by_cases ht' : t' % S.ratio = 0
      · obtain ⟨k, rfl⟩ : ∃ k, t' = k * S.ratio := ⟨t' / S.ratio, by
          have := Nat.div_add_mod t' S.ratio; rw [Nat.mul_comm]; omega⟩
        have hk : k < N := Nat.lt_of_mul_lt_mul_right hlt
        obtain ⟨h1, h2, h3⟩ := h.load hS (junk := junk) (junkQ := junkQ) hk fun hd => hfp hd rfl
        have he : exec S (bwdStep junk junkQ S) (s, .iter (k * S.ratio)) x =
            Storage.load junk junkQ S s (k * S.ratio) x := by
          simp only [exec, bwdStep, bwdIter]
          rw [if_pos ht']
        obtain ⟨h4, h5⟩ := BInv.ops hS (junk := junk) (junkQ := junkQ) ho h1 fun hd e => by
          rw [h2]; exact hfp hd e
        have hx : execAll S (bwdStep junk junkQ S) (shotOps s (Op.iter (k * S.ratio) :: os)) x =
            execAll S (bwdStep junk junkQ S) (shotOps s os) (Storage.load junk junkQ S s (k * S.ratio) x) := by
          rw [← he]; rfl
        rw [hx]
        refine ⟨h4, fun os' t e ht => ?_⟩
        cases os' with
        | nil =>
            simp only [List.nil_append, List.cons.injEq, Op.iter.injEq] at e
            obtain ⟨rfl, rfl⟩ := e
            exact h3
        | cons o' os' =>
            simp only [List.cons_append, List.cons.injEq] at e
            exact h5 os' t e.2 ht
      · have he : exec S (bwdStep junk junkQ S) (s, .iter t') x = x := by
          simp only [exec, bwdStep, bwdIter]
          rw [if_neg ht']
        have hx : execAll S (bwdStep junk junkQ S) (shotOps s (Op.iter t' :: os)) x =
            execAll S (bwdStep junk junkQ S) (shotOps s os) x := by
          show execAll S _ (shotOps s os) (exec S _ _ x) = _
          rw [he]
        obtain ⟨h4, h5⟩ := BInv.ops hS (junk := junk) (junkQ := junkQ) ho h hfp
        rw [hx]
        refine ⟨h4, fun os' t e ht => ?_⟩
        cases os' with
        | nil =>
            simp only [List.nil_append, List.cons.injEq, Op.iter.injEq] at e
            exact absurd (e.1 ▸ ht) ht'
        | cons o' os' =>
            simp only [List.cons_append, List.cons.injEq] at e
            exact h5 os' t e.2 ht
  | .fclose :: os, o, x, ho, h, hfp => by
      have h1 : BInv S snap s N (exec S (bwdStep junk junkQ S) (s, .fclose) x) := ⟨h.saved, h.len⟩
      obtain ⟨h2, h3⟩ := BInv.ops hS (junk := junk) (junkQ := junkQ) (o := false) ho h1
        fun _ e => absurd e (by decide)
      refine ⟨h2, fun os' t e ht => ?_⟩
      cases os' with
      | nil => simp at e
      | cons o' os' =>
          simp only [List.cons_append, List.cons.injEq] at e
          exact h3 os' t e.2 ht

end Dw.Storage
