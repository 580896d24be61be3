import Mathlib.Tactic.FinCases
import Mathlib.Data.Rat.Floor
import Verif.Storage.Shot
import Verif.Scalar.Backward
import Verif.Props.ScalarForward

/-!
# Stored snapshots, storage modes and compression

Notation of this file: a *trace* of a pass is any interleaving of the operations of the shots (open
the file, iteration `t`, close the file) that keeps the order of each shot's own operations.
-/

namespace Dw.Storage

open Classical
open Setup (InShape)

variable {d : ℕ} {R : Type*} [Field R] [LinearOrder R] [FloorRing R] {S : SCfg d}

/-- `es` is an interleaving of `prog` run by each shot. -/
structure IsTrace (S : SCfg d) (prog : List Op) (es : List (ℕ × Op)) : Prop where
  shots : ∀ e ∈ es, e.1 < S.nShots
  own : ∀ s < S.nShots, (es.filter (·.1 = s)).map (·.2) = prog

omit [Field R] [LinearOrder R] [FloorRing R] in
theorem filter_shot (es : List (ℕ × Op)) (s : ℕ) :
    es.filter (·.1 = s) = shotOps s ((es.filter (·.1 = s)).map (·.2)) := by
  unfold shotOps
  rw [List.map_map]
  conv_lhs => rw [← List.map_id (es.filter _)]
  refine List.map_congr_left fun e he => ?_
  have : e.1 = s := by simpa using (List.mem_filter.1 he).2
  obtain ⟨a, b⟩ := e
  cases this
  rfl

theorem localIter_fwd (hS : S.Ok) (junk : R) (snap : ℕ → ℕ → Cell d → R) :
    LocalIter S (fwdStep junk S snap) :=
  ⟨fun _ _ _ _ hs hs' hne => fwdIter_frame hS hs hs' hne, fun _ _ _ _ h => fwdIter_congr hS h⟩

omit [LinearOrder R] [FloorRing R] in
theorem localIter_bwd (hS : S.Ok) (junk : R) (junkQ : ℕ) : LocalIter S (bwdStep junk junkQ S) :=
  ⟨fun _ _ _ _ hs hs' hne => bwdIter_frame hS hs hs' hne, fun _ _ _ _ h => bwdIter_congr hS h⟩

/-- What the backward kernel reads. -/
theorem seen_eq (hS : S.Ok) (junk : R) (junkQ : ℕ) (snap : ℕ → ℕ → Cell d → R) {N : ℕ}
    {fcs bcs : List (ℕ × ℕ)} (hf : Consecutive 0 fcs N) (hb : ∀ ch ∈ bcs, ch.2 ≤ ch.1 ∧ ch.1 ≤ N)
    {fes pre post : List (ℕ × Op)} {s t : ℕ} (htf : IsTrace S (fwdProg S fcs) fes)
    (htb : IsTrace S (bwdProg S bcs) (pre ++ (s, .iter t) :: post)) (ht : t % S.ratio = 0)
    {c : Cell d} (hc : InShape S.n c) :
    seen junk S s t (execAll S (bwdStep junk junkQ S) (pre ++ [(s, .iter t)])
      (execAll S (fwdStep junk S snap) fes (St.init S.sz))) c = S.restored junkQ (snap s t) c := by
  have hs : s < S.nShots := htb.shots (s, .iter t) (by simp)
  have hown := htb.own s hs
  have e1 : ((pre ++ [(s, Op.iter t)]).filter (·.1 = s)).map (·.2) =
      (pre.filter (·.1 = s)).map (·.2) ++ [.iter t] := by simp
  have e2 : ((pre ++ (s, Op.iter t) :: post).filter (·.1 = s)).map (·.2) =
      ((pre.filter (·.1 = s)).map (·.2) ++ [.iter t]) ++ (post.filter (·.1 = s)).map (·.2) := by
    simp
  have hok : OkOps S N false ((pre.filter (·.1 = s)).map (·.2) ++ [.iter t]) := by
    have := okOps_prog (S := S) (N := N) (o := false) hb
    rw [← hown, e2] at this
    exact this.prefix
  -- forward pass, alone
  have hfwd := execAll_agree (localIter_fwd hS junk snap) hs fes _ _ htf.shots
    (Agree.refl S s (St.init S.sz))
  rw [filter_shot, htf.own s hs] at hfwd
  have hfinv := FInv.prog hS (junk := junk) (snap := snap) hs hf (FInv.init S (snap s) s)
  set x := execAll S (fwdStep junk S snap) (shotOps s (fwdProg S fcs)) (St.init S.sz)
  have hbinv : BInv S (snap s) s N x := ⟨hfinv.saved, hfinv.len⟩
  obtain ⟨-, h2⟩ := hbinv.ops hS (junk := junk) (junkQ := junkQ) hok fun _ e => absurd e (by decide)
  have hraw := h2 _ t rfl ht
  have hbwd := execAll_agree (localIter_bwd hS junk junkQ) hs (pre ++ [(s, .iter t)]) _ _
    (fun e he => htb.shots e (by
      rcases List.mem_append.1 he with h | h
      · exact List.mem_append_left _ h
      · simp only [List.mem_singleton] at h; subst h; simp)) hfwd
  rw [filter_shot, e1] at hbwd
  unfold seen
  rw [hbwd.readCell hS junk t hc]
  exact readVal_of hS.sz fun j hj => by rw [add_assoc]; exact hraw c hc j hj

/-! ## C24 -/

/-- **C24** Without compression, for any forward and backward chunking and any interleaving of the
shots, the backward kernel reads exactly the snapshot value that the forward kernel stored for that
shot, step and cell, in memory and in disk mode. -/
theorem C24_stored_is_loaded (hS : S.Ok) (hraw : S.comp = false) (junk : R) (junkQ : ℕ)
    (snap : ℕ → ℕ → Cell d → R) {N : ℕ} {fcs bcs : List (ℕ × ℕ)} (hf : Consecutive 0 fcs N)
    (hb : ∀ ch ∈ bcs, ch.2 ≤ ch.1 ∧ ch.1 ≤ N) {fes pre post : List (ℕ × Op)} {s t : ℕ}
    (htf : IsTrace S (fwdProg S fcs) fes)
    (htb : IsTrace S (bwdProg S bcs) (pre ++ (s, .iter t) :: post)) (ht : t % S.ratio = 0)
    {c : Cell d} (hc : c ∈ S.written) :
    seen junk S s t (execAll S (bwdStep junk junkQ S) (pre ++ [(s, .iter t)])
      (execAll S (fwdStep junk S snap) fes (St.init S.sz))) c = snap s t c := by
  rw [seen_eq hS junk junkQ snap hf hb htf htb ht (hS.written c hc)]
  unfold SCfg.restored SCfg.full
  rw [hraw]
  simp [hc]

/-! ## C26 -/

/-- The cells of the same 8-per-dimension block. -/
def SameBlock (c c' : Cell d) : Prop := ∀ k, c k / 8 = c' k / 8

variable [IsStrictOrderedRing R]

/-- **C26** Compressing any array of any shape and decompressing it changes a value by at most 1/254
of the largest magnitude in its block; zero values are unchanged, whatever was in the buffers. -/
theorem C26_compress_error (junk : R) (junkQ : ℕ) {sz : ℕ} (hsz : 0 < sz) (n : Fin d → ℤ)
    (inp : Cell d → R) (m1 m2 : Mem R) (off1 off2 : ℕ) {c : Cell d} (hc : InShape n c) :
    let out := readVal junk sz (applyWrites m1 (decompressWrites junk junkQ sz n
      (applyWrites m2 (compressWrites sz n inp off2)) off2 off1)) (off1 + idx n c * sz)
    (∃ c', InShape n c' ∧ SameBlock c' c ∧ (∀ c'', InShape n c'' → SameBlock c'' c → |inp c''| ≤ |inp c'|) ∧
      |out - inp c| ≤ |inp c'| / 254) ∧ (inp c = 0 → out = 0) := by
  intro out
  have hraw := decompress_isRaw (junk := junk) (junkQ := junkQ) (off1 := off1) hsz
    (compress_isComp (sz := sz) (n := n) inp off2 m2) m1
  have hout : out = restore junkQ (inp c) (maxAbs n inp (blockOf c)) :=
    readVal_of hsz fun j hj => by rw [add_assoc]; exact hraw c hc j hj
  obtain ⟨h1, c', h2, h3, h4⟩ := maxAbs_spec inp hc
  rw [hout]
  refine ⟨⟨c', h2, fun k => congrFun h3 k, fun c'' h5 h6 => ?_, ?_⟩, fun h0 => ?_⟩
  · have h7 := (maxAbs_spec inp h5).1
    have : blockOf c'' = blockOf c := funext h6
    rw [this, h4] at h7
    exact h7
  · rw [← h4]; exact restore_error h1
  · rw [h0]
    exact restore_zero ((abs_nonneg _).trans h1)

/-- **C26** The same through the storage of a whole run: the value the backward kernel reads differs
from the stored one by at most 1/254 of a snapshot value of the same block, shot and step. -/
theorem C26_loaded_error (hS : S.Ok) (hcomp : S.comp = true) (junk : R) (junkQ : ℕ)
    (snap : ℕ → ℕ → Cell d → R) {N : ℕ} {fcs bcs : List (ℕ × ℕ)} (hf : Consecutive 0 fcs N)
    (hb : ∀ ch ∈ bcs, ch.2 ≤ ch.1 ∧ ch.1 ≤ N) {fes pre post : List (ℕ × Op)} {s t : ℕ}
    (htf : IsTrace S (fwdProg S fcs) fes)
    (htb : IsTrace S (bwdProg S bcs) (pre ++ (s, .iter t) :: post)) (ht : t % S.ratio = 0)
    {c : Cell d} (hc : c ∈ S.written) :
    ∃ c' ∈ S.written, SameBlock c' c ∧
      |seen junk S s t (execAll S (bwdStep junk junkQ S) (pre ++ [(s, .iter t)])
        (execAll S (fwdStep junk S snap) fes (St.init S.sz))) c - snap s t c| ≤ |snap s t c'| / 254 := by
  rw [seen_eq hS junk junkQ snap hf hb htf htb ht (hS.written c hc)]
  unfold SCfg.restored
  rw [hcomp]
  simp only [if_true]
  obtain ⟨h1, c', h2, h3, h4⟩ := maxAbs_spec (S.full (snap s t)) (hS.written c hc)
  have hfc : S.full (snap s t) c = snap s t c := by unfold SCfg.full; rw [if_pos hc]
  have herr := restore_error (junkQ := junkQ) h1
  rw [hfc, h4] at herr h1
  rw [hfc]
  by_cases hw : c' ∈ S.written
  · refine ⟨c', hw, fun k => congrFun h3 k, ?_⟩
    have hfc' : S.full (snap s t) c' = snap s t c' := by unfold SCfg.full; rw [if_pos hw]
    rw [h4, ← hfc']
    exact herr
  · refine ⟨c, hc, fun _ => rfl, ?_⟩
    have hfc' : S.full (snap s t) c' = 0 := by unfold SCfg.full; rw [if_neg hw]
    rw [h4]
    rw [hfc'] at herr h1 ⊢
    have : |snap s t c| = 0 := le_antisymm (by simpa using h1) (abs_nonneg _)
    rw [this]
    simpa using herr

/-! ## C27 -/

omit [IsStrictOrderedRing R] in
/-- **C27** For every step of a run of `nt` internal steps, every byte that the compressor stores for
a shot lies in a slot of `shot_bytes_comp` bytes inside the allocation; slots of different shots never
share a byte, nor, with snapshots in memory, do slots of different steps. -/
theorem C27_compressed_slots (hS : S.Ok) (hcomp : S.comp = true) (nt : ℕ) {s t : ℕ} (hs : s < S.nShots)
    (ht : t / S.ratio < nt / S.ratio) (inp : Cell d → R) :
    (∀ w ∈ compressWrites S.sz S.n inp (S.off2 s t),
      S.off2 s t ≤ w.1 ∧ w.1 < S.off2 s t + S.bytesComp ∧ w.1 < S.alloc2 nt) ∧
    ∀ (s' t' : ℕ) (inp' : Cell d → R), s' < S.nShots → (s' ≠ s ∨ S.mode = .device ∧ t' / S.ratio ≠ t / S.ratio) →
      ∀ w ∈ compressWrites S.sz S.n inp (S.off2 s t),
        ∀ w' ∈ compressWrites S.sz S.n inp' (S.off2 s' t'), w.1 ≠ w'.1 := by
  have hfit := S.comp_fits hS hcomp
  unfold SCfg.numEl at hfit
  have hdvd : S.bytesComp / S.sz * S.sz = S.bytesComp := Nat.div_mul_cancel S.sz_dvd_bytesComp
  refine ⟨fun w hw => ?_, fun s' t' inp' hs' hne w hw w' hw' e => ?_⟩
  · obtain ⟨h1, h2⟩ := compressWrites_bound hw
    refine ⟨h1, by omega, ?_⟩
    have h3 : w.1 < (S.slot2 s t + 1) * S.bytesComp := by
      rw [S.off2_eq] at h2
      rw [Nat.add_mul]
      omega
    refine lt_of_lt_of_le h3 ?_
    unfold SCfg.alloc2 SCfg.slot2
    rw [if_pos hcomp]
    rcases hS.mode with hd | hd
    · rw [hd]
      simp only [hcomp, and_self, if_true]
      rw [Nat.mul_assoc, hdvd]
      refine Nat.mul_le_mul_right _ ?_
      have : (t / S.ratio + 1) * S.nShots ≤ S.numSteps nt * S.nShots := Nat.mul_le_mul_right _ ht
      rw [Nat.add_mul] at this
      omega
    · rw [hd]
      simp only [reduceCtorEq, false_and, if_false]
      rw [Nat.mul_assoc, hdvd]
      exact Nat.mul_le_mul_right _ (by omega)
  · obtain ⟨h1, h2⟩ := compressWrites_bound hw
    obtain ⟨h3, h4⟩ := compressWrites_bound hw'
    obtain ⟨e1, e2, -⟩ := S.off2_inj (j := w.1 - S.off2 s t) (j' := w'.1 - S.off2 s' t')
      (t := t) (t' := t') hs hs' (by omega) (by omega) (by omega)
    rcases hne with hne | ⟨hd, hne⟩
    · exact hne e1.symm
    · exact hne (e2 ⟨hd, hcomp⟩).symm

omit [Field R] [LinearOrder R] [FloorRing R] [IsStrictOrderedRing R] in
/-- **C27** Likewise for the values the forward kernel stores. -/
theorem C27_uncompressed_slots (hS : S.Ok) (nt : ℕ) {s t : ℕ} (hs : s < S.nShots)
    (ht : t / S.ratio < nt / S.ratio) (v : Cell d → R) :
    (∀ w ∈ snapWrites S s t v, w.1 < S.alloc1 nt) ∧
    ∀ (s' t' : ℕ) (v' : Cell d → R), s' < S.nShots →
      (s' ≠ s ∨ S.mode = .device ∧ S.comp = false ∧ t' / S.ratio ≠ t / S.ratio) →
      ∀ w ∈ snapWrites S s t v, ∀ w' ∈ snapWrites S s' t' v', w.1 ≠ w'.1 := by
  refine ⟨fun w hw => ?_, fun s' t' v' hs' hne w hw w' hw' e => ?_⟩
  · obtain ⟨c, hc, j, hj, rfl⟩ := mem_snapWrites.1 hw
    have h1 := S.cell_byte_lt (hS.written c hc) hj
    have h3 : S.off1 s t + (idx S.n c * S.sz + j) < (S.slot1 s t + 1) * S.bytesUncomp := by
      rw [S.off1_eq, Nat.add_mul]
      omega
    refine lt_of_lt_of_le h3 ?_
    unfold SCfg.alloc1 SCfg.slot1
    rcases hS.mode with hd | hd
    · rw [hd]
      cases hc : S.comp
      · simp only [Bool.false_eq_true, not_false_eq_true, and_self, if_true, if_false]
        rw [Nat.mul_assoc (S.numSteps nt * S.nShots)]
        refine Nat.mul_le_mul_right _ ?_
        have : (t / S.ratio + 1) * S.nShots ≤ S.numSteps nt * S.nShots := Nat.mul_le_mul_right _ ht
        rw [Nat.add_mul] at this
        omega
      · simp only [not_true_eq_false, and_false, if_false, if_true]
        rw [Nat.mul_assoc]
        exact Nat.mul_le_mul_right _ (by omega)
    · rw [hd]
      simp only [reduceCtorEq, false_and, if_false]
      rw [Nat.mul_assoc]
      exact Nat.mul_le_mul_right _ (by omega)
  · obtain ⟨c, hc, j, hj, rfl⟩ := mem_snapWrites.1 hw
    obtain ⟨c', hc', j', hj', rfl⟩ := mem_snapWrites.1 hw'
    obtain ⟨e1, e2, -⟩ := S.off1_inj hs hs' (S.cell_byte_lt (hS.written c hc) hj)
      (S.cell_byte_lt (hS.written c' hc') hj') e
    rcases hne with hne | ⟨hd, hc, hne⟩
    · exact hne e1.symm
    · exact hne (e2 ⟨hd, by simp [hc]⟩).symm

end Dw.Storage

/-! ## C25 -/

namespace Dw.Scalar

open Storage

variable {d ns nr : ℕ} {R : Type*} [Field R] {C : Cfg d ns nr R}

/-- Only the snapshot values of interior cells and stored steps matter to the backward pass. -/
theorem Cfg.backward_congr (h : C.WF) (hr : 0 < C.ratio) {grad : Bool} {cb : Option ℕ} {nt : ℕ}
    {store store' : ℕ → Fld d R} {gr : ℕ → Fin nr → R} {g : Init d R}
    (hcf : 0 < nt → 0 < cb.getD (nt / C.ratio))
    (hst : ∀ k < nt / C.ratio, ∀ c, C.Inner c → store k c = store' k c) :
    C.backward grad cb nt store gr g = C.backward grad cb nt store' gr g := by
  rw [C.backward_eq h grad cb nt store gr g hr hcf, C.backward_eq h grad cb nt store' gr g hr hcf]
  have hb : ∀ i < nt / C.ratio * C.ratio,
      C.bGrad grad store gr (nt / C.ratio * C.ratio) (C.bStart g) i =
      C.bGrad grad store' gr (nt / C.ratio * C.ratio) (C.bStart g) i := by
    intro i hi
    funext c
    unfold Cfg.bGrad
    split_ifs with hc
    · rw [hst _ ?_ c hc.2]
      rw [Nat.div_lt_iff_lt_mul hr]
      omega
    · rfl
  have hsum : ∀ n ≤ nt / C.ratio * C.ratio, (fun c => ∑ i ∈ Finset.range n,
        C.bGrad grad store gr (nt / C.ratio * C.ratio) (C.bStart g) i c) =
      fun c => ∑ i ∈ Finset.range n,
        C.bGrad grad store' gr (nt / C.ratio * C.ratio) (C.bStart g) i c := by
    intro n hn
    funext c
    refine Finset.sum_congr rfl fun i hi => ?_
    rw [hb i (by have := Finset.mem_range.1 hi; omega)]
  simp only
  rw [hsum _ le_rfl]
  cases cb with
  | none => rfl
  | some cf =>
      congr 2
      refine List.map_congr_left fun i _ => ?_
      unfold Cfg.bEventAt
      rw [hsum _ (Nat.mul_le_mul_right _ (min_le_left _ _))]

theorem consecutive_chunks_aux {N cf : ℕ} (hcf : 0 < cf) : ∀ m i, i + m = (N + cf - 1) / cf →
    Consecutive (min N (i * cf)) ((List.range' i m).map fun i => (i * cf, min (N - i * cf) cf)) N
  | 0, i, h => by
      simp only [List.range'_zero, List.map_nil, Consecutive]
      have h1 := Nat.div_add_mod (N + cf - 1) cf
      have h2 := Nat.mod_lt (N + cf - 1) hcf
      rw [← h, Nat.mul_comm] at h1
      simp only [Nat.add_zero] at h1
      omega
  | m + 1, i, h => by
      rw [List.range'_succ, List.map_cons]
      have hlt : i * cf < N := by
        have h1 : i + 1 ≤ (N + cf - 1) / cf := by omega
        rw [Nat.le_div_iff_mul_le hcf, Nat.add_mul] at h1
        omega
      refine ⟨by simp only; omega, ?_⟩
      have e : min N (i * cf) + min (N - i * cf) cf = min N ((i + 1) * cf) := by
        rw [Nat.add_mul]; omega
      simp only
      rw [e]
      exact consecutive_chunks_aux hcf m (i + 1) (by omega)

/-- The forward driver's chunks follow each other. -/
theorem consecutive_chunks {N cf : ℕ} (hcf : 0 < cf) : Consecutive 0 (chunks N cf) N := by
  have := consecutive_chunks_aux (N := N) hcf ((N + cf - 1) / cf) 0 (by omega)
  simp only [Nat.zero_mul, Nat.min_zero] at this
  unfold chunks
  rw [List.range_eq_range']
  exact this

/-- The backward driver visits every step. -/
theorem mem_bwdProg (S : SCfg d) {N cf k : ℕ} (hcf : 0 < cf) (hr : 0 < S.ratio) (hk : k < N) :
    Op.iter (k * S.ratio) ∈ bwdProg S (bwdChunks N cf) := by
  obtain ⟨i, hi⟩ : ∃ i, i = (N - 1 - k) / cf := ⟨_, rfl⟩
  have h1 := Nat.div_add_mod (N - 1 - k) cf
  have h2 := Nat.mod_lt (N - 1 - k) hcf
  rw [← hi, Nat.mul_comm] at h1
  have h3 : i * cf ≤ N - 1 - k := by omega
  have h4 : N - 1 - k < i * cf + cf := by omega
  have hi2 : i < (N + cf - 1) / cf := by
    rw [← Nat.succ_le_iff, Nat.le_div_iff_mul_le hcf, Nat.succ_mul]
    omega
  unfold bwdProg bwdChunks
  rw [List.mem_flatMap]
  refine ⟨(N - i * cf, min (N - i * cf) cf), List.mem_map.2 ⟨i, List.mem_range.2 hi2, rfl⟩, ?_⟩
  unfold Storage.bwdCall
  simp only [List.mem_append, List.mem_cons, List.mem_map, List.mem_range]
  refine .inl (.inr ⟨(N - i * cf) * S.ratio - 1 - k * S.ratio, ?_, ?_⟩)
  · have h5 : (k + 1) * S.ratio ≤ (N - i * cf) * S.ratio := Nat.mul_le_mul_right _ (by omega)
    rw [Nat.add_mul] at h5
    have h6 : N - i * cf ≤ k + min (N - i * cf) cf := by omega
    have h7 := Nat.mul_le_mul_right S.ratio h6
    rw [Nat.add_mul] at h7
    omega
  · have h5 : (k + 1) * S.ratio ≤ (N - i * cf) * S.ratio := Nat.mul_le_mul_right _ (by omega)
    rw [Nat.add_mul] at h5
    congr 1
    omega

/-- The storage configuration `S` belongs to a run of `C`. -/
structure StorageOf (C : Cfg d ns nr R) (S : SCfg d) : Prop where
  n : S.n = C.n
  ratio : S.ratio = C.ratio
  written : S.written = C.fwdArgs.visits.map Prod.snd

/-- `loaded` is what the backward kernel of shot `s` reads in the trace `bes`, after forward trace
`fes` in which the kernels stored `snap`. -/
def Reads [LinearOrder R] [FloorRing R] (S : SCfg d) (junk : R) (junkQ : ℕ)
    (snap : ℕ → ℕ → Fld d R) (fes bes : List (ℕ × Op)) (s : ℕ) (loaded : ℕ → Fld d R) : Prop :=
  ∀ pre post t, bes = pre ++ (s, .iter t) :: post → t % S.ratio = 0 → ∀ c ∈ S.written,
    loaded (t / S.ratio) c = seen junk S s t (execAll S (bwdStep junk junkQ S) (pre ++ [(s, .iter t)])
      (execAll S (fwdStep junk S snap) fes (St.init S.sz))) c

variable [LinearOrder R] [FloorRing R]

/-- **C25** Without compression, a shot's backward pass with the snapshots it reads back, in memory or
disk mode, with any forward and backward callback schedules, whatever the other shots do and however
they interleave, gives the same gradients, wavefields and callback events as with the snapshots as
computed. -/
theorem C25_gradient_from_storage (h : C.WF) (hr : 0 < C.ratio) {S : SCfg d} (hof : StorageOf C S)
    (hsz : 0 < S.sz) (hmode : S.mode = .device ∨ S.mode = .disk) (hraw : S.comp = false) {nt : ℕ}
    {fcb bcb : Option ℕ} (hfcf : 0 < fcb.getD (nt / C.ratio)) (hbcf : 0 < bcb.getD (nt / C.ratio))
    {f : ℕ → Fin ns → R} {w : Init d R} {res : FwdResult d nr R}
    (_hres : C.forward true fcb nt f w = .ok res)
    {junk : R} {junkQ : ℕ} {snap : ℕ → ℕ → Fld d R} {s : ℕ} (hs : s < S.nShots)
    (hsnap : ∀ t, snap s t = res.store (t / C.ratio)) {fes bes : List (ℕ × Op)}
    (htf : IsTrace S (fwdProg S (chunks (nt / C.ratio) (fcb.getD (nt / C.ratio)))) fes)
    (htb : IsTrace S (bwdProg S (bwdChunks (nt / C.ratio) (bcb.getD (nt / C.ratio)))) bes)
    {loaded : ℕ → Fld d R} (hl : Reads S junk junkQ snap fes bes s loaded)
    (gr : ℕ → Fin nr → R) (g : Init d R) :
    C.backward true bcb nt loaded gr g = C.backward true bcb nt res.store gr g := by
  have hvis : ∀ c, c ∈ S.written ↔ C.Inner c := by
    intro c
    rw [hof.written]
    have h22 := (C22_each_interior_cell_once C h.w0_nonneg h.w1_nonneg (by
      have := h.size; rw [Acc.order_div_two]; intro k; have := this k; omega) C.fwdArgs (by simp)).2 c
    rw [Acc.order_div_two] at h22
    unfold visitedCells at h22
    rw [h22]
    unfold Cfg.Inner
    refine forall_congr' fun k => ?_
    omega
  have hS : S.Ok := by
    refine ⟨hsz, by rw [hof.ratio]; exact hr, fun c hc k => ?_, hmode⟩
    have := (hvis c).1 hc k
    rw [hof.n]
    omega
  refine Cfg.backward_congr h hr (fun _ => hbcf) fun k hk c hc => ?_
  have hmem : (s, Op.iter (k * S.ratio)) ∈ bes := by
    have h1 := mem_bwdProg S (N := nt / C.ratio) hbcf hS.ratio hk
    rw [← htb.own s hs, List.mem_map] at h1
    obtain ⟨e, he, heq⟩ := h1
    obtain ⟨h2, h3⟩ := List.mem_filter.1 he
    have h3 : e.1 = s := by simpa using h3
    rw [← h3, ← heq]
    exact h2
  obtain ⟨pre, post, hsp⟩ := List.append_of_mem hmem
  have hmod : k * S.ratio % S.ratio = 0 := Nat.mul_mod_left _ _
  have hdiv : k * S.ratio / S.ratio = k := Nat.mul_div_cancel _ hS.ratio
  have h1 := hl pre post _ hsp hmod c ((hvis c).2 hc)
  rw [hdiv] at h1
  rw [h1]
  subst hsp
  rw [C24_stored_is_loaded hS hraw junk junkQ snap (consecutive_chunks hfcf) ?_ htf htb hmod
    ((hvis c).2 hc), hsnap, ← hof.ratio, hdiv]
  intro ch hch
  unfold bwdChunks at hch
  rw [List.mem_map] at hch
  obtain ⟨i, -, rfl⟩ := hch
  exact ⟨min_le_left _ _, by simp only; omega⟩

/-- **C25** Two storage modes give the same backward pass. -/
theorem C25_storage_mode_independent (h : C.WF) (hr : 0 < C.ratio) {S S' : SCfg d}
    (hof : StorageOf C S) (hof' : StorageOf C S') (hsz : 0 < S.sz) (hsz' : 0 < S'.sz)
    (hmode : S.mode = .device) (hmode' : S'.mode = .disk) (hraw : S.comp = false)
    (hraw' : S'.comp = false) {nt : ℕ} {fcb bcb : Option ℕ} (hfcf : 0 < fcb.getD (nt / C.ratio))
    (hbcf : 0 < bcb.getD (nt / C.ratio)) {f : ℕ → Fin ns → R} {w : Init d R} {res : FwdResult d nr R}
    (hres : C.forward true fcb nt f w = .ok res) {junk : R} {junkQ : ℕ} {snap : ℕ → ℕ → Fld d R} {s : ℕ}
    (hs : s < S.nShots) (hs' : s < S'.nShots)
    (hsnap : ∀ t, snap s t = res.store (t / C.ratio)) {fes bes fes' bes' : List (ℕ × Op)}
    (htf : IsTrace S (fwdProg S (chunks (nt / C.ratio) (fcb.getD (nt / C.ratio)))) fes)
    (htb : IsTrace S (bwdProg S (bwdChunks (nt / C.ratio) (bcb.getD (nt / C.ratio)))) bes)
    (htf' : IsTrace S' (fwdProg S' (chunks (nt / C.ratio) (fcb.getD (nt / C.ratio)))) fes')
    (htb' : IsTrace S' (bwdProg S' (bwdChunks (nt / C.ratio) (bcb.getD (nt / C.ratio)))) bes')
    {loaded loaded' : ℕ → Fld d R} (hl : Reads S junk junkQ snap fes bes s loaded)
    (hl' : Reads S' junk junkQ snap fes' bes' s loaded') (gr : ℕ → Fin nr → R) (g : Init d R) :
    C.backward true bcb nt loaded gr g = C.backward true bcb nt loaded' gr g :=
  (C25_gradient_from_storage h hr hof hsz (.inl hmode) hraw hfcf hbcf hres hs hsnap htf htb hl gr g).trans
    (C25_gradient_from_storage h hr hof' hsz' (.inr hmode') hraw' hfcf hbcf hres hs' hsnap htf' htb' hl'
      gr g).symm

/-! ### Hypotheses can be met -/

omit [Field R] [LinearOrder R] [FloorRing R] in
/-- One shot after the other is a trace. -/
theorem isTrace_sequential (S : SCfg d) (prog : List Op) :
    IsTrace S prog ((List.range S.nShots).flatMap fun s => shotOps s prog) := by
  refine ⟨fun e he => ?_, fun s hs => ?_⟩
  · obtain ⟨s, hs, he⟩ := List.mem_flatMap.1 he
    obtain ⟨o, -, rfl⟩ := List.mem_map.1 he
    exact List.mem_range.1 hs
  · have key : ∀ (l : List ℕ), l.Nodup → s ∈ l →
        ((l.flatMap fun s => shotOps s prog).filter (·.1 = s)).map (·.2) = prog := by
      intro l
      have hno : ∀ l : List ℕ, s ∉ l →
          (l.flatMap fun s => shotOps s prog).filter (·.1 = s) = [] := by
        intro l hl
        rw [List.filter_eq_nil_iff]
        intro e he
        obtain ⟨s', hs', he⟩ := List.mem_flatMap.1 he
        obtain ⟨o, -, rfl⟩ := List.mem_map.1 he
        simp only [decide_eq_true_eq]
        rintro rfl
        exact hl hs'
      have hall : (shotOps s prog).filter (·.1 = s) = shotOps s prog := by
        rw [List.filter_eq_self]
        intro e he
        obtain ⟨o, -, rfl⟩ := List.mem_map.1 he
        simp
      induction l with
      | nil => simp
      | cons a l ih =>
          intro hnd hmem
          rw [List.flatMap_cons, List.filter_append, List.map_append]
          by_cases ha : s = a
          · subst ha
            rw [hno l (List.nodup_cons.1 hnd).1, hall]
            simp [shotOps]
          · have : (shotOps a prog).filter (·.1 = s) = [] := by
              rw [List.filter_eq_nil_iff]
              intro e he
              obtain ⟨o, -, rfl⟩ := List.mem_map.1 he
              simp only [decide_eq_true_eq]
              exact fun h => ha h.symm
            rw [this]
            simpa using ih (List.nodup_cons.1 hnd).2
              ((List.mem_cons.1 hmem).resolve_left ha)
    exact key _ List.nodup_range (List.mem_range.2 hs)

/-- Three shots of the example configuration. -/
def exStorage (mode : StorageMode) (comp : Bool) : SCfg 2 :=
  { n := exN, sz := 4, nShots := 3, ratio := 2, mode, comp
    written := exCfg.fwdArgs.visits.map Prod.snd }

theorem exStorage_ok (mode : StorageMode) (comp : Bool) (h : mode = .device ∨ mode = .disk) :
    (exStorage mode comp).Ok := by
  refine ⟨by simp [exStorage], by simp [exStorage], fun c hc k => ?_, h⟩
  have := ((C22_each_interior_cell_once exCfg (fun _ => by simp [exCfgOf])
      (fun _ => by simp [exCfgOf]) (by intro k; fin_cases k <;> simp [exCfgOf, Acc.order, exN])
      exCfg.fwdArgs (by simp)).2 c).1 hc k
  simp only [exCfgOf, Acc.order] at this
  simp only [exStorage]
  omega

/-- Stored steps of the example: 7, in chunks of 3 forward and 2 backward; the traces exist, and what
is read in disk mode is not the initial content. -/
example (junk : ℚ) (snap : ℕ → ℕ → Fld 2 ℚ) : ∃ fes pre post,
    IsTrace (exStorage .disk false) (fwdProg (exStorage .disk false) (chunks 7 3)) fes ∧
    IsTrace (exStorage .disk false) (bwdProg (exStorage .disk false) (bwdChunks 7 2))
      (pre ++ (1, .iter 4) :: post) ∧
    seen junk (exStorage .disk false) 1 4
      (execAll (exStorage .disk false) (bwdStep junk 0 (exStorage .disk false)) (pre ++ [(1, .iter 4)])
        (execAll (exStorage .disk false) (fwdStep junk (exStorage .disk false) snap) fes (St.init 4)))
      ![3, 3] = snap 1 4 ![3, 3] := by
  have ht := isTrace_sequential (exStorage .disk false)
    (bwdProg (exStorage .disk false) (bwdChunks 7 2))
  have hmem : ((1, Op.iter 4) : ℕ × Op) ∈ (List.range (exStorage .disk false).nShots).flatMap
      fun s => shotOps s (bwdProg (exStorage .disk false) (bwdChunks 7 2)) := by
    refine List.mem_flatMap.2 ⟨1, List.mem_range.2 (by simp [exStorage]), List.mem_map.2 ⟨_, ?_, rfl⟩⟩
    exact mem_bwdProg (exStorage .disk false) (k := 2) (by decide) (by simp [exStorage]) (by decide)
  obtain ⟨pre, post, hsp⟩ := List.append_of_mem hmem
  rw [hsp] at ht
  refine ⟨_, pre, post, isTrace_sequential _ _, ht, ?_⟩
  refine C24_stored_is_loaded (exStorage_ok _ _ (.inr rfl)) rfl junk 0 snap
    (consecutive_chunks (by decide)) ?_ (isTrace_sequential _ _) ht rfl ?_
  · intro ch hch
    unfold bwdChunks at hch
    rw [List.mem_map] at hch
    obtain ⟨i, -, rfl⟩ := hch
    exact ⟨min_le_left _ _, by simp only; omega⟩
  · refine ((C22_each_interior_cell_once exCfg (fun _ => by simp [exCfgOf])
      (fun _ => by simp [exCfgOf]) (by intro k; fin_cases k <;> simp [exCfgOf, Acc.order, exN])
      exCfg.fwdArgs (by simp)).2 _).2 ?_
    intro k; fin_cases k <;> simp [exCfgOf, Acc.order, exN]

/-- There are values that satisfy `Reads`: those of C25 with the example configuration. -/
example (junk : ℚ) (mode : StorageMode) (hm : mode = .device ∨ mode = .disk) : ∃ res loaded fes bes,
    exCfg.forward true (some 3) 14 (exAmp ℚ) (exInit ℚ) = .ok res ∧
    StorageOf exCfg (exStorage mode false) ∧
    IsTrace (exStorage mode false) (fwdProg (exStorage mode false) (chunks 7 3)) fes ∧
    IsTrace (exStorage mode false) (bwdProg (exStorage mode false) (bwdChunks 7 2)) bes ∧
    Reads (exStorage mode false) junk 0 (fun _ t => res.store (t / 2)) fes bes 1 loaded := by
  obtain ⟨res, hres⟩ : ∃ res, exCfg.forward true (some 3) 14 (exAmp ℚ) (exInit ℚ) = .ok res :=
    ⟨_, exCfg.forward_eq exCfg_wf true (some 3) 14 (exAmp ℚ) (exInit ℚ) (by decide) (by simp)⟩
  refine ⟨res, res.store, _, _, hres, ⟨rfl, rfl, rfl⟩, isTrace_sequential _ _,
    isTrace_sequential _ _, ?_⟩
  intro pre post t hsp ht c hc
  have htb := isTrace_sequential (exStorage mode false) (bwdProg (exStorage mode false) (bwdChunks 7 2))
  rw [hsp] at htb
  rw [C24_stored_is_loaded (exStorage_ok _ _ hm) rfl junk 0 _ (consecutive_chunks (by decide)) ?_
    (isTrace_sequential _ _) htb ht hc]
  · rfl
  · intro ch hch
    unfold bwdChunks at hch
    rw [List.mem_map] at hch
    obtain ⟨i, -, rfl⟩ := hch
    exact ⟨min_le_left _ _, by simp only; omega⟩

/-- C26, C27: a compressed configuration that satisfies `Ok`, with partial blocks in both
dimensions. -/
example : (exStorage .disk true).Ok ∧ (exStorage .disk true).bytesComp = 172 ∧
    (exStorage .disk true).bytesUncomp = 624 := by
  refine ⟨exStorage_ok _ _ (.inr rfl), ?_, ?_⟩
  · simp [SCfg.bytesComp, exStorage, SCfg.numEl, exN, nBlocks, nb, Fin.prod_univ_two]
  · simp [SCfg.bytesUncomp, exStorage, SCfg.numEl, exN, Fin.prod_univ_two]

end Dw.Scalar
