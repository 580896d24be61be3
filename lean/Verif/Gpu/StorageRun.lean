import Verif.Gpu.StorageLemmas

/-!
# Runs of the GPU storage
-/

namespace Dw.Storage

open Classical
open Setup (InShape)

variable {d : ℕ} {R : Type*} [Field R] [LinearOrder R] [FloorRing R] [IsStrictOrderedRing R] {S : SCfg d}

/-- Where the snapshot of step index `k` is kept. -/
def SCfg.gKept (S : SCfg d) (x : GSt R) (k : ℕ) : ℕ → Frag R := fun j =>
  match S.mode with
  | .device => S.src k x j
  | .cpu => x.s3 (S.gOff3 k + j)
  | .disk => (x.file[k * S.gBytes + j]?).getD .undef
  | .none => .undef

/-- Memory outside of the tensors is as before. -/
structure SCfg.Outside (S : SCfg d) (nt : ℕ) (x y : GSt R) : Prop where
  s1 : ∀ b a, S.gAlloc1 nt b ≤ a → y.s1 b a = x.s1 b a
  s2 : ∀ a, S.alloc2 nt ≤ a → y.s2 a = x.s2 a
  s3 : ∀ a, S.gAlloc3 nt ≤ a → y.s3 a = x.s3 a

/-- The first `K` snapshots are saved. -/
structure GInv (S : SCfg d) (snap : ℕ → ℕ → Cell d → R) (nt : ℕ) (x₀ : GSt R) (K : ℕ) (x : GSt R) : Prop where
  saved : ∀ k < K, S.GHolds (fun s => S.full (snap s (k * S.ratio))) (S.gKept x k)
  zero : ∀ k < S.numSteps nt, (S.mode = .device → S.comp = false → K ≤ k) → ∀ s < S.nShots, ∀ c, InShape S.n c →
    c ∉ S.written → ∀ j < S.sz,
      x.s1 (S.useB k) (S.gOff1 k + ((s * S.numEl + idx S.n c) * S.sz + j)) = .part 0 j
  len : S.mode = .disk → x.file.length = K * S.gBytes
  ok : x.failed = false
  out : S.Outside nt x₀ x

/-- The snapshots can be loaded. -/
structure GBInv (S : SCfg d) (snap : ℕ → ℕ → Cell d → R) (nt : ℕ) (x₀ : GSt R) (N : ℕ) (x : GSt R) : Prop where
  saved : ∀ k < N, S.GHolds (fun s => S.full (snap s (k * S.ratio))) (S.gKept x k)
  len : S.mode = .disk → x.file.length = N * S.gBytes
  ok : x.failed = false
  out : S.Outside nt x₀ x

theorem GInv.save (hS : S.GOk) {σ : Sched d R} (hσ : σ.Ok S) {junk : R} {snap : ℕ → ℕ → Cell d → R} {nt K : ℕ}
    {x₀ x : GSt R} (h : GInv S snap nt x₀ K x) (hK : K < S.numSteps nt)
    (hfp : S.mode = .disk → ∃ p, x.fp = some ⟨.ab, p⟩) :
    GInv S snap nt x₀ (K + 1) (gFwd junk S σ snap (K * S.ratio) x) ∧
      (gFwd junk S σ snap (K * S.ratio) x).fp = x.fp := by
  have hdiv : K * S.ratio / S.ratio = K := Nat.mul_div_cancel _ hS.ratio
  obtain ⟨b1, b2, b3⟩ := S.in_alloc hS hK
  -- the kernel
  obtain ⟨y1, hy1⟩ : ∃ y, gSnap S σ snap (K * S.ratio) x = y := ⟨_, rfl⟩
  have e1 : y1.s1 = Function.update x.s1 (S.useB K)
      (applyWrites (x.s1 (S.useB K)) (gSnapWrites S σ snap (K * S.ratio))) := by
    rw [← hy1]; unfold gSnap; rw [hdiv]
  have r1 : y1.s2 = x.s2 ∧ y1.s3 = x.s3 ∧ y1.file = x.file ∧ y1.fp = x.fp ∧ y1.failed = x.failed := by
    rw [← hy1]; exact ⟨rfl, rfl, rfl, rfl, rfl⟩
  have hraw : S.IsRawG (fun s => S.full (snap s (K * S.ratio))) fun j => y1.s1 (S.useB K) (S.gOff1 K + j) := by
    have := gSnap_isRaw hS hσ (snap := snap) (t := K * S.ratio) (m := x.s1 (S.useB K)) (by
      rw [hdiv]; exact h.zero K hK fun _ _ => le_rfl)
    rw [hdiv] at this
    rw [e1, Function.update_self]
    exact this
  have f1 : ∀ a, a < S.gOff1 K ∨ S.gOff1 K + S.bytesUncomp * S.nShots ≤ a →
      y1.s1 (S.useB K) a = x.s1 (S.useB K) a := by
    intro a ha
    rw [e1, Function.update_self]
    exact gSnap_frame hS hσ (by rw [hdiv]; exact ha)
  -- compression
  obtain ⟨y2, hy2⟩ : ∃ y, gEnc junk S σ (K * S.ratio) y1 = y := ⟨_, rfl⟩
  obtain ⟨q1, q3, q4, q5, q6⟩ := gEnc_rest junk S σ (K * S.ratio) y1
  have hsrc := gEnc_src hS hσ junk (K * S.ratio) (x := y1) (by rw [hdiv]; exact hraw)
  have f2 : ∀ a, (S.comp = true → a < S.gOff2 K ∨ S.gOff2 K + S.gBytes ≤ a) → y2.s2 a = y1.s2 a := by
    intro a ha
    rw [← hy2]
    exact gEnc_frame hS hσ junk (K * S.ratio) y1 (by rw [hdiv]; exact ha)
  rw [hdiv] at hsrc
  rw [hy2] at q1 q3 q4 q5 q6 hsrc
  -- copy
  obtain ⟨y3, hy3⟩ : ∃ y, gPut S K y2 = y := ⟨_, rfl⟩
  obtain ⟨p1, p2, p4, p5, p6⟩ := gPut_rest S K y2
  have hin : S.mode = .cpu ∨ S.mode = .disk → ∀ j < S.gBytes, y3.s3 (S.gOff3 K + j) = S.src K y2 j := by
    intro hm j hj
    rw [← hy3]
    exact gPut_in y2 hm hj
  have f3 : ∀ a, (S.mode = .cpu ∨ S.mode = .disk → a < S.gOff3 K ∨ S.gOff3 K + S.gBytes ≤ a) →
      y3.s3 a = y2.s3 a := fun a ha => by rw [← hy3]; exact gPut_frame y2 ha
  rw [hy3] at p1 p2 p4 p5 p6
  -- file
  obtain ⟨y4, hy4⟩ : ∃ y, gWrite S K y3 = y := ⟨_, rfl⟩
  obtain ⟨w1, w2, w3, w5, w6⟩ := gWrite_rest S K y3
  have hfile : S.mode = .disk → y4.file = x.file ++ (List.range S.gBytes).map fun j => S.src K y2 j := by
    intro hm
    obtain ⟨p, hp⟩ := hfp hm
    have hp3 : y3.fp = some ⟨.ab, p⟩ := by rw [p5, q5, r1.2.2.2.1, hp]
    rw [← hy4]
    unfold gWrite
    rw [if_pos hm, hp3]
    simp only [fseek, fwrite]
    rw [p4, q4, r1.2.2.1]
    congr 1
    refine List.map_congr_left fun j hj => ?_
    exact hin (.inr hm) j (List.mem_range.1 hj)
  rw [hy4] at w1 w2 w3 w5 w6
  have hy : gFwd junk S σ snap (K * S.ratio) x = y4 := by
    unfold gFwd gSave
    rw [if_pos (Nat.mul_mod_left _ _), if_neg hS.mode, hy1, hy2, hdiv, hy3, hy4]
  rw [hy]
  refine ⟨⟨fun k hk => ?_, fun k hk hd s hs c hc hw j hj => ?_, fun hm => ?_, ?_, ?_⟩, ?_⟩
  · rcases Nat.lt_succ_iff_lt_or_eq.1 hk with hk | rfl
    · refine (h.saved k hk).bytes hS fun j hj => ?_
      have hlt := slots_disjoint hk hj
      unfold SCfg.gKept
      match hm : S.mode with
      | .none => rfl
      | .device =>
        simp only
        unfold SCfg.src
        cases hc : S.comp
        · simp only [Bool.false_eq_true, if_false]
          obtain ⟨c1, c2, c3⟩ := S.places_device_raw (k := k) hm hc
          obtain ⟨g1, g2, -⟩ := S.places_device_raw (k := K) hm hc
          rw [w1, p1, q1, c1, c2, ← g1]
          exact (f1 _ (.inl (by rw [g2]; exact hlt))).symm
        · simp only [if_true]
          obtain ⟨c1, c2⟩ := S.places_device_comp (k := k) hm hc
          obtain ⟨g1, g2⟩ := S.places_device_comp (k := K) hm hc
          rw [w2, p2, f2 _ fun _ => .inl (by rw [c2, g2]; exact hlt), r1.1]
      | .cpu =>
        simp only
        obtain ⟨-, -, c3⟩ := S.places_cpu (k := k) hm
        obtain ⟨-, -, g3⟩ := S.places_cpu (k := K) hm
        rw [w3, f3 _ fun _ => .inl (by rw [c3, g3]; exact hlt), q3, r1.2.1]
      | .disk =>
        simp only
        rw [hfile hm, List.getElem?_append_left (by rw [h.len hm]; exact hlt)]
    · refine hsrc.bytes hS fun j hj => ?_
      unfold SCfg.gKept
      match hm : S.mode with
      | .none => exact absurd hm hS.mode
      | .device =>
        simp only
        unfold SCfg.src
        rw [w1, w2, p1, p2]
      | .cpu =>
        simp only
        rw [w3, hin (.inl hm) j hj]
      | .disk =>
        simp only
        rw [hfile hm, List.getElem?_append_right (by rw [h.len hm]; omega)]
        rw [h.len hm, Nat.add_sub_cancel_left, List.getElem?_map, List.getElem?_range hj]
        rfl
  · rw [w1, p1, q1]
    have hold := h.zero k hk (fun e1 e2 => by have := hd e1 e2; omega) s hs c hc hw j hj
    rw [← hold]
    by_cases hb : S.useB k = S.useB K
    · rw [hb]
      by_cases hoff : S.gOff1 k = S.gOff1 K
      · rw [hoff, e1, Function.update_self]
        have := gSnap_unwritten hS hσ (snap := snap) (t := K * S.ratio) (m := x.s1 (S.useB K)) (s := s) hc hw hj
        rw [hdiv] at this
        exact this
      · refine f1 _ (.inr ?_)
        match hm : S.mode with
        | .none => exact absurd hm hS.mode
        | .device =>
          cases hcm : S.comp
          · obtain ⟨-, c2, c3⟩ := S.places_device_raw (k := k) hm hcm
            obtain ⟨-, g2, -⟩ := S.places_device_raw (k := K) hm hcm
            have := Nat.mul_le_mul_right S.gBytes (hd hm hcm)
            rw [Nat.succ_mul] at this
            rw [c2, g2, ← c3]
            omega
          · exact absurd ((S.places_device_comp hm hcm).1.trans (S.places_device_comp hm hcm).1.symm) hoff
        | .cpu => exact absurd ((S.places_cpu hm).1.trans (S.places_cpu hm).1.symm) hoff
        | .disk => exact absurd ((S.places_disk hm).2.1.trans (S.places_disk hm).2.1.symm) hoff
    · rw [e1, Function.update_of_ne hb]
  · rw [hfile hm, List.length_append, h.len hm, List.length_map, List.length_range, Nat.succ_mul]
  · rw [w6, p6, q6, r1.2.2.2.2, h.ok]
  · refine ⟨fun b a ha => ?_, fun a ha => ?_, fun a ha => ?_⟩
    · rw [w1, p1, q1, ← h.out.s1 b a ha]
      by_cases hb : b = S.useB K
      · subst hb
        exact f1 a (.inr (b1.trans ha))
      · rw [e1, Function.update_of_ne hb]
    · rw [w2, p2, f2 a fun hc => .inr ((b2 hc).trans ha), r1.1, h.out.s2 a ha]
    · rw [w3, f3 a fun hm => .inr ((b3 hm).trans ha), q3, r1.2.1, h.out.s3 a ha]
  · rw [w5, p5, q5, r1.2.2.2.1]

omit [Field R] [LinearOrder R] [FloorRing R] [IsStrictOrderedRing R] in
theorem gExecAll_append (iter : ℕ → GSt R → GSt R) (a b : List Op) (x : GSt R) :
    gExecAll S iter (a ++ b) x = gExecAll S iter b (gExecAll S iter a x) := by
  unfold gExecAll
  rw [List.foldl_append]

theorem GInv.iters (hS : S.GOk) {σ : Sched d R} (hσ : σ.Ok S) {junk : R} {snap : ℕ → ℕ → Cell d → R}
    {nt K : ℕ} {x₀ x : GSt R} (h : GInv S snap nt x₀ K x) (hfp : S.mode = .disk → ∃ p, x.fp = some ⟨.ab, p⟩) :
    ∀ i l, i ≤ l * S.ratio → K + l ≤ S.numSteps nt →
      GInv S snap nt x₀ (K + (i + S.ratio - 1) / S.ratio)
        (gExecAll S (gFwd junk S σ snap) ((List.range i).map fun i => .iter (K * S.ratio + i)) x) ∧
      (gExecAll S (gFwd junk S σ snap) ((List.range i).map fun i => .iter (K * S.ratio + i)) x).fp = x.fp := by
  intro i l
  have hr := hS.ratio
  induction i with
  | zero =>
      intro _ _
      have : (0 + S.ratio - 1) / S.ratio = 0 := Nat.div_eq_of_lt (by omega)
      rw [this]
      exact ⟨h, rfl⟩
  | succ i ih =>
      intro hil hl
      obtain ⟨h1, h2⟩ := ih (by omega) hl
      rw [List.range_succ, List.map_append, gExecAll_append]
      set y := gExecAll S (gFwd junk S σ snap) ((List.range i).map fun i => .iter (K * S.ratio + i)) x
      have hstep : gExecAll S (gFwd junk S σ snap) ([i].map fun i => Op.iter (K * S.ratio + i)) y =
          gFwd junk S σ snap (K * S.ratio + i) y := rfl
      rw [hstep]
      by_cases hi : i % S.ratio = 0
      · obtain ⟨q, rfl⟩ : ∃ q, i = q * S.ratio := ⟨i / S.ratio, by
          have := Nat.div_add_mod i S.ratio; rw [Nat.mul_comm]; omega⟩
        have hq : q < l := Nat.lt_of_mul_lt_mul_right (show q * S.ratio < l * S.ratio by omega)
        have e1 : (q * S.ratio + S.ratio - 1) / S.ratio = q := by
          rw [show q * S.ratio + S.ratio - 1 = S.ratio * q + (S.ratio - 1) by rw [Nat.mul_comm]; omega]
          rw [Nat.mul_add_div hr, Nat.div_eq_of_lt (by omega)]; rfl
        have e2 : (q * S.ratio + 1 + S.ratio - 1) / S.ratio = q + 1 := by
          rw [show q * S.ratio + 1 + S.ratio - 1 = (q + 1) * S.ratio by rw [Nat.add_mul]; omega]
          exact Nat.mul_div_cancel _ hr
        rw [e1] at h1
        rw [e2, ← Nat.add_mul]
        obtain ⟨h3, h4⟩ := h1.save hS hσ (junk := junk) (by omega) fun hd => by rw [h2]; exact hfp hd
        exact ⟨h3, h4.trans h2⟩
      · have e1 : (i + 1 + S.ratio - 1) / S.ratio = (i + S.ratio - 1) / S.ratio := by
          have h2 := Nat.div_add_mod i S.ratio
          have h3 := Nat.mod_lt i hr
          have a1 : (i + 1 + S.ratio - 1) / S.ratio = i / S.ratio + 1 := by
            rw [show i + 1 + S.ratio - 1 = i + S.ratio by omega, Nat.add_div_right _ hr]
          have a2 : (i + S.ratio - 1) / S.ratio = i / S.ratio + 1 := by
            rw [show i + S.ratio - 1 = (i - 1) + S.ratio by omega, Nat.add_div_right _ hr]
            congr 1
            have h4 : i - 1 = S.ratio * (i / S.ratio) + (i % S.ratio - 1) := by omega
            have h5 : (i % S.ratio - 1) / S.ratio = 0 := Nat.div_eq_of_lt (by omega)
            rw [h4, Nat.mul_add_div hr, h5]; rfl
          rw [a1, a2]
        have : gFwd junk S σ snap (K * S.ratio + i) y = y := by
          unfold gFwd
          rw [if_neg]
          rw [Nat.mul_comm, Nat.mul_add_mod]
          exact hi
        rw [e1, this]
        exact ⟨h1, h2⟩

theorem GInv.call (hS : S.GOk) {σ : Sched d R} (hσ : σ.Ok S) {junk : R} {snap : ℕ → ℕ → Cell d → R}
    {nt K l : ℕ} {x₀ x : GSt R} (h : GInv S snap nt x₀ K x) (hl : K + l ≤ S.numSteps nt) :
    GInv S snap nt x₀ (K + l) (gExecAll S (gFwd junk S σ snap) (fwdCall (K * S.ratio) (l * S.ratio)) x) := by
  unfold fwdCall
  rw [gExecAll_append, gExecAll_append]
  obtain ⟨x1, hx1⟩ : ∃ x1, gExecAll S (gFwd junk S σ snap) [Op.fopen .ab] x = x1 := ⟨_, rfl⟩
  have h1 : GInv S snap nt x₀ K x1 ∧ (S.mode = .disk → ∃ p, x1.fp = some ⟨.ab, p⟩) := by
    rw [← hx1]
    simp only [gExecAll, List.foldl_cons, List.foldl_nil, gExec]
    split_ifs with hd
    · refine ⟨⟨fun k hk => ?_, h.zero, fun _ => ?_, h.ok, ⟨h.out.s1, h.out.s2, h.out.s3⟩⟩, fun _ => ⟨0, rfl⟩⟩
      · have := h.saved k hk
        unfold SCfg.gKept at this ⊢
        simpa [hd, fopenContent] using this
      · simpa [fopenContent] using h.len hd
    · exact ⟨h, fun e => absurd e hd⟩
  rw [hx1]
  obtain ⟨h2, -⟩ := h1.1.iters hS hσ (junk := junk) h1.2 (l * S.ratio) l le_rfl hl
  have e : (l * S.ratio + S.ratio - 1) / S.ratio = l := by
    have hr := hS.ratio
    rw [show l * S.ratio + S.ratio - 1 = S.ratio * l + (S.ratio - 1) by rw [Nat.mul_comm]; omega]
    rw [Nat.mul_add_div hr, Nat.div_eq_of_lt (by omega)]; rfl
  rw [e] at h2
  exact ⟨h2.saved, h2.zero, h2.len, h2.ok, ⟨h2.out.s1, h2.out.s2, h2.out.s3⟩⟩

theorem consecutive_le : ∀ {a b : ℕ} {cs : List (ℕ × ℕ)}, Consecutive a cs b → a ≤ b
  | _, _, [], h => le_of_eq h
  | _, _, _ :: _, h => by have := consecutive_le h.2; omega

theorem GInv.prog (hS : S.GOk) {σ : Sched d R} (hσ : σ.Ok S) {junk : R} {snap : ℕ → ℕ → Cell d → R} {nt : ℕ}
    {x₀ : GSt R} : ∀ {K N : ℕ} {cs : List (ℕ × ℕ)} {x : GSt R}, Consecutive K cs N → N ≤ S.numSteps nt →
      GInv S snap nt x₀ K x → GInv S snap nt x₀ N (gExecAll S (gFwd junk S σ snap) (fwdProg S cs) x)
  | K, N, [], x, hc, _, h => by cases hc; exact h
  | K, N, ch :: cs, x, hc, hN, h => by
      unfold fwdProg
      rw [List.flatMap_cons, gExecAll_append, hc.1]
      exact GInv.prog hS hσ hc.2 hN (h.call hS hσ ((consecutive_le hc.2).trans hN))

theorem SCfg.gOff1_dvd (k : ℕ) : S.sz ∣ S.gOff1 k := by
  unfold gOff1
  split_ifs
  · exact Nat.dvd_zero _
  · exact Nat.dvd_mul_left _ _
  · exact Nat.dvd_mul_left _ _

omit [IsStrictOrderedRing R] in
theorem GInv.init (hS : S.GOk) {snap : ℕ → ℕ → Cell d → R} {nt : ℕ} {x : GSt R} (h : x.Fresh S nt) :
    GInv S snap nt x 0 x := by
  refine ⟨fun k hk => by omega, fun k hk _ s hs c hc _ j hj => ?_, fun _ => by rw [h.file]; simp, h.failed,
    ⟨fun _ _ _ => rfl, fun _ _ => rfl, fun _ _ => rfl⟩⟩
  have h1 := (S.in_alloc hS hk).1
  have h2 := S.cell_lt hs hc hj
  rw [h.s1 _ _ (by omega)]
  obtain ⟨q, hq⟩ := S.gOff1_dvd k
  congr 1
  rw [hq, Nat.mul_add_mod, Nat.mul_comm, Nat.mul_add_mod, Nat.mod_eq_of_lt hj]

/-! ### Backward -/

omit [Field R] [LinearOrder R] [FloorRing R] [IsStrictOrderedRing R] in
theorem gRead_rest (S : SCfg d) (k : ℕ) (x : GSt R) :
    (gRead S k x).s1 = x.s1 ∧ (gRead S k x).s2 = x.s2 ∧ (gRead S k x).file = x.file ∧ (gRead S k x).fp = x.fp := by
  unfold gRead; split_ifs
  · cases x.fp <;> simp
  · exact ⟨rfl, rfl, rfl, rfl⟩

omit [Field R] [LinearOrder R] [FloorRing R] [IsStrictOrderedRing R] in
theorem gGet_rest (S : SCfg d) (k : ℕ) (x : GSt R) :
    (gGet S k x).s3 = x.s3 ∧ (gGet S k x).file = x.file ∧ (gGet S k x).fp = x.fp ∧
      (gGet S k x).failed = x.failed := by
  unfold gGet; split_ifs <;> exact ⟨rfl, rfl, rfl, rfl⟩

omit [LinearOrder R] [FloorRing R] [IsStrictOrderedRing R] in
theorem gDec_rest (junk : R) (junkQ : ℕ) (S : SCfg d) (σ : Sched d R) (t : ℕ) (x : GSt R) :
    (gDec junk junkQ S σ t x).s2 = x.s2 ∧ (gDec junk junkQ S σ t x).s3 = x.s3 ∧
      (gDec junk junkQ S σ t x).file = x.file ∧ (gDec junk junkQ S σ t x).fp = x.fp ∧
      (gDec junk junkQ S σ t x).failed = x.failed := by
  unfold gDec; split_ifs <;> exact ⟨rfl, rfl, rfl, rfl, rfl⟩

omit [IsStrictOrderedRing R] in
theorem GBInv.load (hS : S.GOk) {σ : Sched d R} (hσ : σ.Ok S) {junk : R} {junkQ : ℕ}
    {snap : ℕ → ℕ → Cell d → R} {nt N k : ℕ} {x₀ x : GSt R} (h : GBInv S snap nt x₀ N x) (hk : k < N)
    (hN : N ≤ S.numSteps nt) (hfp : S.mode = .disk → ∃ p, x.fp = some ⟨.rb, p⟩) :
    GBInv S snap nt x₀ N (gLoad junk junkQ S σ (k * S.ratio) x) ∧
    (gLoad junk junkQ S σ (k * S.ratio) x).fp = x.fp ∧
    S.IsRawG (fun s => S.restored junkQ (snap s (k * S.ratio)))
      fun j => (gLoad junk junkQ S σ (k * S.ratio) x).s1 (S.useB k) (S.gOff1 k + j) := by
  have hdiv : k * S.ratio / S.ratio = k := Nat.mul_div_cancel _ hS.ratio
  obtain ⟨b1, b2, b3⟩ := S.in_alloc hS (hk.trans_le hN)
  -- file
  obtain ⟨y1, hy1⟩ : ∃ y, gRead S k x = y := ⟨_, rfl⟩
  obtain ⟨r1, r2, r4, r5⟩ := gRead_rest S k x
  have hlen : S.mode = .disk → k * S.gBytes + S.gBytes ≤ x.file.length := by
    intro hm
    rw [h.len hm]
    have := Nat.mul_le_mul_right S.gBytes hk
    rwa [Nat.succ_mul] at this
  have hread : S.mode = .disk → (∀ j < S.gBytes, y1.s3 (S.gOff3 k + j) = S.gKept x k j) ∧
      (∀ a, S.gOff3 k + S.gBytes ≤ a → y1.s3 a = x.s3 a) ∧ y1.failed = x.failed := by
    intro hm
    obtain ⟨p, hp⟩ := hfp hm
    have hl : (fread (fseek ⟨.rb, p⟩ (k * S.gBytes)) x.file S.gBytes).length = S.gBytes := by
      have := hlen hm
      simp only [fread, fseek, List.length_take, List.length_drop]; omega
    rw [← hy1]
    unfold gRead
    rw [if_pos hm, hp]
    refine ⟨fun j hj => ?_, fun a ha => ?_, ?_⟩
    · unfold SCfg.gKept
      rw [hm]
      exact fread_bytes (hlen hm) hj
    · refine applyWrites_of_not_mem fun w hw e => ?_
      rw [List.mem_map] at hw
      obtain ⟨⟨z, i⟩, hz, rfl⟩ := hw
      have := List.snd_lt_of_mem_zipIdx hz
      simp only [hl] at this e
      omega
    · simp only [hl]; simp
  have hnot : S.mode ≠ .disk → y1 = x := by
    intro hm
    rw [← hy1]
    unfold gRead
    rw [if_neg hm]
  rw [hy1] at r1 r2 r4 r5
  -- copy
  obtain ⟨y2, hy2⟩ : ∃ y, gGet S k y1 = y := ⟨_, rfl⟩
  obtain ⟨q3, q4, q5, q6⟩ := gGet_rest S k y1
  have hsrc : S.GHolds (fun s => S.full (snap s (k * S.ratio))) (S.src k y2) := by
    refine (h.saved k hk).bytes hS fun j hj => ?_
    by_cases hm : S.mode = .cpu ∨ S.mode = .disk
    · have e1 : S.src k y2 j = y1.s3 (S.gOff3 k + j) := by
        rw [← hy2]
        unfold SCfg.src gGet
        rw [if_pos hm]
        cases hc : S.comp
        · simp only [Bool.false_eq_true, if_false, Function.update_self]
          exact memcpy_in hj
        · simp only [if_true]
          exact memcpy_in hj
      rw [e1]
      rcases hm with hm | hm
      · rw [hnot (by rw [hm]; decide)]
        unfold SCfg.gKept
        rw [hm]
      · exact ((hread hm).1 j hj).symm
    · have e1 : y2 = x := by
        rw [← hy2]
        unfold gGet
        rw [if_neg hm, hnot fun e => hm (.inr e)]
      rw [e1]
      unfold SCfg.gKept
      match hm' : S.mode with
      | .none => exact absurd hm' hS.mode
      | .device => rfl
      | .cpu => exact absurd (.inl hm') hm
      | .disk => exact absurd (.inr hm') hm
  have g1 : ∀ b a, S.gAlloc1 nt b ≤ a → y2.s1 b a = x.s1 b a := by
    intro b a ha
    rw [← hy2]
    unfold gGet
    split_ifs with hm hc
    · exact congrFun (congrFun r1 b) a
    · by_cases hb : b = S.useB k
      · subst hb
        simp only [Function.update_self]
        rw [memcpy_out (.inr ?_), r1]
        have : S.gBytes = S.bytesUncomp * S.nShots := by simp [SCfg.gBytes, hc]
        omega
      · simp only
        rw [Function.update_of_ne hb, r1]
    · exact congrFun (congrFun r1 b) a
  have g2 : ∀ a, S.alloc2 nt ≤ a → y2.s2 a = x.s2 a := by
    intro a ha
    rw [← hy2]
    unfold gGet
    split_ifs with hm hc
    · simp only
      rw [memcpy_out (.inr ((b2 hc).trans ha)), r2]
    · exact congrFun r2 a
    · exact congrFun r2 a
  have g3 : ∀ a, S.gAlloc3 nt ≤ a → y1.s3 a = x.s3 a := by
    intro a ha
    by_cases hm : S.mode = .disk
    · exact (hread hm).2.1 a ((b3 (.inr hm)).trans ha)
    · rw [hnot hm]
  have g6 : y1.failed = x.failed := by
    by_cases hm : S.mode = .disk
    · exact (hread hm).2.2
    · rw [hnot hm]
  rw [hy2] at q3 q4 q5 q6
  -- decompression
  obtain ⟨y3, hy3⟩ : ∃ y, gDec junk junkQ S σ (k * S.ratio) y2 = y := ⟨_, rfl⟩
  obtain ⟨p2, p3, p4, p5, p6⟩ := gDec_rest junk junkQ S σ (k * S.ratio) y2
  have hdec : S.IsRawG (fun s => S.restored junkQ (snap s (k * S.ratio)))
      (fun j => y3.s1 (S.useB k) (S.gOff1 k + j)) ∧
      ∀ b a, S.gAlloc1 nt b ≤ a → y3.s1 b a = y2.s1 b a := by
    rw [← hy3]
    unfold gDec SCfg.restored
    rw [hdiv]
    unfold SCfg.GHolds SCfg.src at hsrc
    cases hc : S.comp
    · rw [hc] at hsrc
      exact ⟨hsrc, fun _ _ _ => rfl⟩
    · rw [hc] at hsrc
      simp only [if_true, Function.update_self] at hsrc ⊢
      obtain ⟨h1, h2⟩ := gDecompress_eq hS.pos (hσ.dec (k * S.ratio)) junk junkQ hS.sz _ _ hsrc
        (y2.s1 (S.useB k)) (S.gOff1 k)
      refine ⟨fun s hs c hcs j hj => ?_, fun b a ha => ?_⟩
      · simp only
        rw [← Nat.add_assoc]
        exact h1 s hs c hcs j hj
      · by_cases hb : b = S.useB k
        · subst hb
          rw [Function.update_self]
          refine h2 a (.inr ?_)
          have e : S.bytesUncomp * S.nShots = S.nShots * (∏ k, S.n k).toNat * S.sz := by
            unfold SCfg.bytesUncomp SCfg.numEl; ring
          omega
        · rw [Function.update_of_ne hb]
  rw [hy3] at p2 p3 p4 p5 p6
  have hy : gLoad junk junkQ S σ (k * S.ratio) x = y3 := by
    unfold gLoad
    rw [if_neg hS.mode, hdiv, hy1, hy2, hy3]
  rw [hy]
  refine ⟨⟨fun i hi => ?_, fun hm => ?_, ?_, ⟨fun b a ha => ?_, fun a ha => ?_, fun a ha => ?_⟩⟩, ?_, hdec.1⟩
  · refine (h.saved i hi).bytes hS fun j hj => ?_
    unfold SCfg.gKept
    match hm : S.mode with
    | .none => rfl
    | .device =>
      have hm' : ¬(S.mode = .cpu ∨ S.mode = .disk) := by rw [hm]; decide
      have e2 : y2 = x := by
        rw [← hy2]; unfold gGet; rw [if_neg hm', hnot fun e => hm' (.inr e)]
      simp only
      unfold SCfg.src
      cases hc : S.comp
      · have : y3 = x := by rw [← hy3]; unfold gDec; rw [hc]; simpa using e2
        rw [this]
      · simp only [if_true]
        rw [p2, e2]
    | .cpu =>
      simp only
      rw [p3, q3, hnot (by rw [hm]; decide)]
    | .disk =>
      simp only
      rw [p4, q4, r4]
  · rw [p4, q4, r4, h.len hm]
  · rw [p6, q6, g6, h.ok]
  · rw [hdec.2 b a ha, g1 b a ha, h.out.s1 b a ha]
  · rw [p2, g2 a ha, h.out.s2 a ha]
  · rw [p3, q3, g3 a ha, h.out.s3 a ha]
  · rw [p5, q5, r5]

omit [IsStrictOrderedRing R] in
theorem GBInv.ops (hS : S.GOk) {σ : Sched d R} (hσ : σ.Ok S) {junk : R} {junkQ : ℕ}
    {snap : ℕ → ℕ → Cell d → R} {nt N : ℕ} (hN : N ≤ S.numSteps nt) {x₀ : GSt R} :
    ∀ {os : List Op} {o : Bool} {x : GSt R}, OkOps S N o os → GBInv S snap nt x₀ N x →
      (S.mode = .disk → o = true → ∃ p, x.fp = some ⟨.rb, p⟩) →
      GBInv S snap nt x₀ N (gExecAll S (gBwd junk junkQ S σ) os x) ∧
      ∀ os' t, os = os' ++ [.iter t] → t % S.ratio = 0 →
        S.IsRawG (fun s => S.restored junkQ (snap s t)) fun j =>
          (gExecAll S (gBwd junk junkQ S σ) os x).s1 (S.useB (t / S.ratio)) (S.gOff1 (t / S.ratio) + j)
  | [], o, x, _, h, _ => ⟨h, fun os' t e => by simp at e⟩
  | .fopen m :: os, o, x, ho, h, hfp => by
      obtain ⟨rfl, ho⟩ := ho
      have h1 : GBInv S snap nt x₀ N (gExec S (gBwd junk junkQ S σ) (.fopen .rb) x) ∧
          (S.mode = .disk → ∃ p, (gExec S (gBwd junk junkQ S σ) (.fopen .rb) x).fp = some ⟨.rb, p⟩) := by
        simp only [gExec]
        split_ifs with hd
        · refine ⟨⟨fun k hk => ?_, fun _ => ?_, h.ok, ⟨h.out.s1, h.out.s2, h.out.s3⟩⟩, fun _ => ⟨0, rfl⟩⟩
          · have := h.saved k hk
            unfold SCfg.gKept at this ⊢
            simpa [hd, fopenContent] using this
          · simpa [fopenContent] using h.len hd
        · exact ⟨h, fun e => absurd e hd⟩
      obtain ⟨h2, h3⟩ := GBInv.ops hS hσ (junk := junk) (junkQ := junkQ) hN ho h1.1 fun hd _ => h1.2 hd
      refine ⟨h2, fun os' t e ht => ?_⟩
      cases os' with
      | nil => simp at e
      | cons o' os' =>
          simp only [List.cons_append, List.cons.injEq] at e
          exact h3 os' t e.2 ht
  | .iter t' :: os, o, x, ho, h, hfp => by
      obtain ⟨rfl, hlt, ho⟩ := ho
      have hr := hS.ratio
      by_cases ht' : t' % S.ratio = 0
      · obtain ⟨k, rfl⟩ : ∃ k, t' = k * S.ratio := ⟨t' / S.ratio, by
          have := Nat.div_add_mod t' S.ratio; rw [Nat.mul_comm]; omega⟩
        have hk : k < N := Nat.lt_of_mul_lt_mul_right hlt
        obtain ⟨h1, h2, h3⟩ := h.load hS hσ (junk := junk) (junkQ := junkQ) hk hN fun hd => hfp hd rfl
        have hdiv : k * S.ratio / S.ratio = k := Nat.mul_div_cancel _ hr
        have he : gExec S (gBwd junk junkQ S σ) (.iter (k * S.ratio)) x =
            gLoad junk junkQ S σ (k * S.ratio) x := by
          simp only [gExec, gBwd]
          rw [if_pos ht']
        obtain ⟨h4, h5⟩ := GBInv.ops hS hσ (junk := junk) (junkQ := junkQ) hN ho h1 fun hd e => by
          rw [h2]; exact hfp hd e
        have hx : gExecAll S (gBwd junk junkQ S σ) (Op.iter (k * S.ratio) :: os) x =
            gExecAll S (gBwd junk junkQ S σ) os (gLoad junk junkQ S σ (k * S.ratio) x) := by
          rw [← he]; rfl
        rw [hx]
        refine ⟨h4, fun os' t e ht => ?_⟩
        cases os' with
        | nil =>
            simp only [List.nil_append, List.cons.injEq, Op.iter.injEq] at e
            obtain ⟨rfl, rfl⟩ := e
            rw [hdiv]
            exact h3
        | cons o' os' =>
            simp only [List.cons_append, List.cons.injEq] at e
            exact h5 os' t e.2 ht
      · have he : gExec S (gBwd junk junkQ S σ) (.iter t') x = x := by
          simp only [gExec, gBwd]
          rw [if_neg ht']
        have hx : gExecAll S (gBwd junk junkQ S σ) (Op.iter t' :: os) x =
            gExecAll S (gBwd junk junkQ S σ) os x := by
          show gExecAll S _ os (gExec S _ _ x) = _
          rw [he]
        obtain ⟨h4, h5⟩ := GBInv.ops hS hσ (junk := junk) (junkQ := junkQ) hN ho h hfp
        rw [hx]
        refine ⟨h4, fun os' t e ht => ?_⟩
        cases os' with
        | nil =>
            simp only [List.nil_append, List.cons.injEq, Op.iter.injEq] at e
            exact absurd (e.1 ▸ ht) ht'
        | cons o' os' =>
            simp only [List.cons_append, List.cons.injEq] at e
            exact h5 os' t e.2 ht
  | .fclose :: os, o, x, ho, h, hfp => by
      have h1 : GBInv S snap nt x₀ N (gExec S (gBwd junk junkQ S σ) .fclose x) :=
        ⟨h.saved, h.len, h.ok, ⟨h.out.s1, h.out.s2, h.out.s3⟩⟩
      obtain ⟨h2, h3⟩ := GBInv.ops hS hσ (junk := junk) (junkQ := junkQ) hN (o := false) ho h1
        fun _ e => absurd e (by decide)
      refine ⟨h2, fun os' t e ht => ?_⟩
      cases os' with
      | nil => simp at e
      | cons o' os' =>
          simp only [List.cons_append, List.cons.injEq] at e
          exact h3 os' t e.2 ht

end Dw.Storage
