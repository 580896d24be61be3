import Verif.Gpu.Acoustic
import Verif.Elastic.Shots

/-!
# The elastic propagator on the GPU

`elastic.cu`: the kernels (331-1612), the loops over time steps of `forward` (2025-2315) and
`backward` (2660-3058), and the drivers in `elastic.py` for a CUDA device.  The commands of a call are
executed in the order in which they are issued (C62).
-/

namespace Dw.Elastic

open Dw.Scalar (addTo recordFrom)
open Dw.Acoustic (pad_pos)
open Dw.Gpu

variable {d np mp S : ℕ} {nv mv : Fin d → ℕ} {R : Type*} [Field R]

/-- Test whether `c` is in the PML of dimension `k`, for a component that is (`h`) or is not half a
cell further along `k`: `z < pml_z0h || z >= pml_z1h` with `pml_z0h = pml_z0`,
`pml_z1h = MAX(pml_z0, pml_z1 - 1)`, and `z < pml_z0 || z >= pml_z1` (`elastic.cu` 702-722). -/
def CArgs.inPml (A : CArgs d np mp nv mv R) (h : Bool) (c : Cell d) (k : Fin d) : Bool :=
  if h then decide (c k < A.pmlB k) || decide (c k ≥ max (A.pmlB k) (A.pmlE k - 1))
  else decide (c k < A.pmlB k) || decide (c k ≥ A.pmlE k)

/-- Body of `forward_kernel_v` (`elastic.cu` 690-842) for one cell of one shot; the state is that of
all velocity components. -/
def velThread (A : CArgs d np mp nv mv R) (save : Bool) (sig : Fin d → Fin d → Fld d R) (c : Cell d)
    (s : Fin d → VCell d R) : Fin d → VCell d R := fun i =>
  if c i < A.n i - A.acc.pad then
    let pml := fun j => A.inPml (j == i) c j
    let dd := fun j => if j = i then cSH1 A.acc (A.rdx j) fun x => sig i j (c.shift j x)
      else cS1 A.acc (A.rdx j) fun x => sig i j (c.shift j x)
    let m := fun j => if pml j then A.pa (j == i) j (c j) * (s i).m j + A.pb (j == i) j (c j) * dd j
      else (s i).m j
    let w := ∑ j, if pml j then dd j + m j else dd j
    { v := (s i).v + A.B i c * A.dt * w
      m := m
      store := if save then A.dt * w else (s i).store }
  else s i

/-- Body of `forward_kernel_sigma` (`elastic.cu` 912-1051): `none` stands for the normal stresses. -/
def strThread (A : CArgs d np mp nv mv R) (saveN saveS : Bool) (v : Fin d → Fld d R) (c : Cell d)
    (s : Option (Sh d) → SCell d R) : Option (Sh d) → SCell d R
  | none =>
      let pml := A.inPml false c
      let dd := fun i => cS1 A.acc (A.rdx i) fun x => v i (c.shift i x)
      let m := fun i => if pml i then A.a i (c i) * (s none).m i + A.b i (c i) * dd i else (s none).m i
      let dv := fun i => if pml i then dd i + m i else dd i
      let w := A.lam c * ∑ i, dv i
      { s none with
        s := fun i => (s none).s i + A.dt * (w + 2 * A.mu c * dv i)
        m := m
        store := fun i => if saveN then A.dt * dv i else (s none).store i }
  | some p =>
      let i := p.1.1
      let j := p.1.2
      if c i < A.n i - A.acc.pad ∧ c j < A.n j - A.acc.pad then
        let pml := A.inPml true c
        let dl := cSH1 A.acc (A.rdx j) fun x => v i (c.shift j x)
        let dr := cSH1 A.acc (A.rdx i) fun x => v j (c.shift i x)
        let mr := if pml i then A.ah i (c i) * (s (some p)).mr + A.bh i (c i) * dr else (s (some p)).mr
        let ml := if pml j then A.ah j (c j) * (s (some p)).ml + A.bh j (c j) * dl else (s (some p)).ml
        let w := (if pml i then dr + mr else dr) + (if pml j then dl + ml else dl)
        { s (some p) with
          sh := (s (some p)).sh + A.dt * A.muS p c * w
          ml := ml
          mr := mr
          storeS := if saveS then A.dt * w else (s (some p)).storeS }
      else s (some p)

/-- Body of `backward_kernel_sigma` (`elastic.cu` 1164-1321), with the macros `V*_*` (128-229). -/
def bVelThread (A : CArgs d np mp nv mv R) (load : Bool) (store : Fin d → Fld d R) (w : Wavefields d R)
    (c : Cell d) (s : Fin d → BVCell d R) : Fin d → BVCell d R := fun i =>
  if c i < A.n i - A.acc.pad then
    let pml := fun j => A.inPml (j == i) c j
    let adj := fun (j : Fin d) (x : ℤ) => A.dt * modulus A.toCfg w.s w.sh i j (c.shift j x)
    let adjPml := fun (j : Fin d) (x : ℤ) =>
      A.dt * (1 + A.pb (j != i) j (c j + x)) * modulus A.toCfg w.s w.sh i j (c.shift j x)
        + A.pb (j != i) j (c j + x) * w.mv i j (c.shift j x)
    let diff := fun j u => if j = i then cSH1 A.acc (A.rdx j) u else cS1 A.acc (A.rdx j) u
    let v := (s i).v + ∑ j, if pml j then -diff j (adjPml j) else -diff j (adj j)
    { v := v
      mn := fun j => if pml j then
          A.B i c * A.dt * A.pa (j == i) j (c j) * v + A.pa (j == i) j (c j) * w.ms i j c
        else (s i).mn j
      grad := if load then (s i).grad + v * store i c * (A.ratio : R) else (s i).grad }
  else s i

/-- Body of `backward_kernel_v` (`elastic.cu` 1419-1612), with the macros `SIGMA*_*` (231-277). -/
def bStrThread (A : CArgs d np mp nv mv R) (loadL loadM : Bool) (storeN : Fin d → Fld d R)
    (storeS : Sh d → Fld d R) (v : Fin d → Fld d R) (ms : Fin d → Fin d → Fld d R) (c : Cell d)
    (s : Option (Sh d) → BSCell d R) : Option (Sh d) → BSCell d R :=
  let adj := fun (i j : Fin d) (x : ℤ) => A.dt * A.B i (c.shift j x) * v i (c.shift j x)
  let adjPml := fun (i j : Fin d) (x : ℤ) =>
    (1 + A.pb (i == j) j (c j + x)) * A.dt * A.B i (c.shift j x) * v i (c.shift j x)
      + A.pb (i == j) j (c j + x) * ms i j (c.shift j x)
  fun k => match k with
  | none =>
      let pml := A.inPml false c
      let q := s none
      { q with
        gl := if loadL then q.gl + (∑ i, q.s i) * (∑ i, storeN i c) * (A.ratio : R) else q.gl
        gm := if loadM then q.gm + 2 * (∑ i, q.s i * storeN i c) * (A.ratio : R) else q.gm
        m := fun i => if pml i then
            (A.lam c + 2 * A.mu c) * A.dt * A.a i (c i) * q.s i
              + (∑ k ∈ Finset.univ.erase i, A.lam c * A.dt * A.a i (c i) * q.s k) + A.a i (c i) * q.m i
          else q.m i
        s := fun i => q.s i + if pml i then -cS1 A.acc (A.rdx i) (adjPml i i)
          else -cS1 A.acc (A.rdx i) (adj i i) }
  | some p =>
      let i := p.1.1
      let j := p.1.2
      let q := s (some p)
      if c i < A.n i - A.acc.pad ∧ c j < A.n j - A.acc.pad then
        let pml := A.inPml true c
        { q with
          gs := if loadM then q.gs + q.sh * storeS p c * (A.ratio : R) else q.gs
          mr := if pml i then A.muS p c * A.dt * A.ah i (c i) * q.sh + A.ah i (c i) * q.mr else q.mr
          ml := if pml j then A.muS p c * A.dt * A.ah j (c j) * q.sh + A.ah j (c j) * q.ml else q.ml
          sh := q.sh + ((if pml i then -cSH1 A.acc (A.rdx i) (adjPml j i)
                else -cSH1 A.acc (A.rdx i) (adj j i))
              + (if pml j then -cSH1 A.acc (A.rdx j) (adjPml i j)
                else -cSH1 A.acc (A.rdx j) (adj i j))) }
      else q

/-- How the threads of the launches of one time step are executed. -/
structure Sched (d m : ℕ) (l : Fin d → ℕ) (S : ℕ) where
  /-- orders of the threads of the kernels that update the velocities and the stresses -/
  vel : List (Fin S × Cell d)
  str : List (Fin S × Cell d)
  /-- interleavings of the threads that add to normal stress `i` (all in one launch) and to velocity
  component `i` -/
  addP : Fin d → List (Access (Fin S × Fin m))
  addV : (i : Fin d) → List (Access (Fin S × Fin (l i)))

structure Sched.Valid {m : ℕ} {l : Fin d → ℕ} (κ : Sched d m l S) (pad : ℕ) (n : Fin d → ℤ) :
    Prop where
  vel : κ.vel.Perm (stagWork d S pad n)
  str : κ.str.Perm (stagWork d S pad n)
  addP : ∀ i, Interleaving (κ.addP i)
  addV : ∀ i, Interleaving (κ.addV i)

/-- One iteration of the loop of `forward` (`elastic.cu` 2025-2315). -/
def gStep (B : Batch d np mp nv mv S R) (gl gm gb : Bool) (fp : Fin S → ℕ → Fin np → R)
    (fv : Fin S → (i : Fin d) → ℕ → Fin (nv i) → R) (κ : Sched d np nv S) (t : ℕ)
    (m : Fin S → FMem d mp mv R) : Fin S → FMem d mp mv R :=
  let on := t % B.base.ratio == 0
  let saveB := gb && on
  let saveS := gm && on
  let saveN := (gl && on) || saveS
  let vel := runKernel (fun s c => velThread (B.cfg s).fwdArgs saveB (sigOf (m s).wf.s (m s).wf.sh) c)
    κ.vel fun s c i =>
    { v := (m s).wf.v i c, m := fun j => (m s).wf.ms i j c
      store := (m s).storeB (t / B.base.ratio) i c }
  let v := fun i => addSources (κ.addV i) (fun s c => (vel s c i).v) (fun s => B.srcV s i)
    fun s => fv s i t
  let str := runKernel (fun s c => strThread (B.cfg s).fwdArgs saveN saveS (fun i => v i s) c) κ.str
    fun s c k =>
    { s := fun i => (m s).wf.s i c
      m := fun i => (m s).wf.mv i i c
      store := fun i => (m s).storeN (t / B.base.ratio) i c
      sh := k.elim 0 fun p => (m s).wf.sh p c
      ml := k.elim 0 fun p => (m s).wf.mv p.1.1 p.1.2 c
      mr := k.elim 0 fun p => (m s).wf.mv p.1.2 p.1.1 c
      storeS := k.elim 0 fun p => (m s).storeS (t / B.base.ratio) p c }
  let sn := fun i => addSources (κ.addP i) (fun s c => (str s c none).s i) B.srcP fun s => fp s t
  fun s =>
    { wf :=
        { v := fun i => v i s
          s := fun i => sn i s
          sh := fun p c => (str s c (some p)).sh
          mv := fun i j c => pick (fun i => (str s c none).m i) (fun p => (str s c (some p)).ml)
            (fun p => (str s c (some p)).mr) i j
          ms := fun i j c => (vel s c i).m j }
      storeB := if saveB then Function.update (m s).storeB (t / B.base.ratio)
        fun i c => (vel s c i).store else (m s).storeB
      storeN := if saveN then Function.update (m s).storeN (t / B.base.ratio)
        fun i c => (str s c none).store i else (m s).storeN
      storeS := if saveS then Function.update (m s).storeS (t / B.base.ratio)
        fun p c => (str s c (some p)).storeS else (m s).storeS
      rcdP := Function.update (m s).rcdP t
        (recordFrom (fun c => ∑ i, (m s).wf.s i c) (B.rcvP s) ((m s).rcdP t))
      rcdV := fun i => Function.update ((m s).rcdV i) t
        (recordFrom ((m s).wf.v i) (B.rcvV s i) ((m s).rcdV i t)) }

/-- One iteration of the loop of `backward` (`elastic.cu` 2660-3003), with the pointers not
exchanged. -/
def gBStep (B : Batch d np mp nv mv S R) (gl gm gb : Bool)
    (storeB storeN : Fin S → ℕ → Fin d → Fld d R) (storeS : Fin S → ℕ → Sh d → Fld d R)
    (grP : Fin S → ℕ → Fin mp → R) (grV : Fin S → (i : Fin d) → ℕ → Fin (mv i) → R)
    (κ : Sched d mp mv S) (t : ℕ) (m : Fin S → BMem d np nv R) : Fin S → BMem d np nv R :=
  let on := t % B.base.ratio == 0
  let vel := runKernel (fun s c => bVelThread (B.cfg s).bwdArgs (gb && on)
    (storeB s (t / B.base.ratio)) (m s).wf c) κ.vel fun s c i =>
      { v := (m s).wf.v i c, mn := fun j => (m s).msn i j c, grad := (m s).gr.b i c }
  let str := runKernel (fun s c => bStrThread (B.cfg s).bwdArgs (gl && on) (gm && on)
    (storeN s (t / B.base.ratio)) (storeS s (t / B.base.ratio)) (fun i c => (vel s c i).v)
    (m s).wf.ms c) κ.str fun s c k =>
    { s := fun i => (m s).wf.s i c
      m := fun i => (m s).wf.mv i i c
      gl := (m s).gr.l c
      gm := (m s).gr.m c
      sh := k.elim 0 fun p => (m s).wf.sh p c
      ml := k.elim 0 fun p => (m s).wf.mv p.1.1 p.1.2 c
      mr := k.elim 0 fun p => (m s).wf.mv p.1.2 p.1.1 c
      gs := k.elim 0 fun p => (m s).gr.s p c }
  let v := fun i => addSources (κ.addV i) (fun s c => (vel s c i).v) (fun s => B.rcvV s i)
    fun s => grV s i t
  let sn := fun i => addSources (κ.addP i) (fun s c => (str s c none).s i) B.rcvP fun s => grP s t
  fun s =>
    { wf :=
        { v := fun i => v i s
          s := fun i => sn i s
          sh := fun p c => (str s c (some p)).sh
          mv := fun i j c => pick (fun i => (str s c none).m i) (fun p => (str s c (some p)).ml)
            (fun p => (str s c (some p)).mr) i j
          ms := (m s).wf.ms }
      msn := fun i j c => (vel s c i).mn j
      gfP := Function.update (m s).gfP t
        (recordFrom (fun c => ∑ i, (m s).wf.s i c) (B.srcP s) ((m s).gfP t))
      gfV := fun i => Function.update ((m s).gfV i) t
        (recordFrom (fun c => (vel s c i).v) (B.srcV s i) ((m s).gfV i t))
      gr := { l := fun c => (str s c none).gl
              m := fun c => (str s c none).gm
              s := fun p c => (str s c (some p)).gs
              b := fun i c => (vel s c i).grad } }

/-- `ElasticForwardFunc.forward` (`elastic.py` 1185-1568) on a CUDA device.  `κ t` is the execution of
the launches of time step `t`. -/
def Batch.gpuForward (B : Batch d np mp nv mv S R) (gl gm gb : Bool) (cb : Option ℕ) (nt : ℕ)
    (fp : Fin S → ℕ → Fin np → R) (fv : Fin S → (i : Fin d) → ℕ → Fin (nv i) → R)
    (w : Fin S → Init d R) (κ : ℕ → Sched d np nv S) : Except PyErr (BatchFResult d mp mv S R) :=
  if B.base.ratio = 0 then .error .zeroDivision else
  let cf := cb.getD (nt / B.base.ratio)
  if (0 < S ∧ 0 < nt) ∧ cf = 0 then .error .valueError else
  let m := gFwdPass id (fun t => gStep B gl gm gb fp fv (κ t) t) B.base.ratio
    (fun step m => ⟨step, m.wf⟩) nt cf fun s => B.base.fInit (w s)
  .ok { out := fun s => B.base.unpadAll (m.1 s).wf, rcdP := fun s => (m.1 s).rcdP
        rcdV := fun s => (m.1 s).rcdV, storeB := fun s => (m.1 s).storeB
        storeN := fun s => (m.1 s).storeN, storeS := fun s => (m.1 s).storeS
        events := if cb.isSome then m.2 else [] }

/-- `ElasticForwardFunc.backward` (`elastic.py` 1571-1949) on a CUDA device.  `comb` is the order of
the threads of the launches of `combine_grad`, for each call and model. -/
def Batch.gpuBackward (B : Batch d np mp nv mv S R) (gl gm gb : Bool) (cb : Option ℕ) (nt : ℕ)
    (storeB storeN : Fin S → ℕ → Fin d → Fld d R) (storeS : Fin S → ℕ → Sh d → Fld d R)
    (grP : Fin S → ℕ → Fin mp → R) (grV : Fin S → (i : Fin d) → ℕ → Fin (mv i) → R)
    (g : Fin S → Init d R) (κ : ℕ → Sched d mp mv S) (comb : ℕ → GIx d → List (Cell d)) :
    Except PyErr (BatchBResult d np nv S R) :=
  if B.base.ratio = 0 then .error .zeroDivision else
  let cf := cb.getD (nt / B.base.ratio)
  if (0 < S ∧ 0 < nt) ∧ cf = 0 then .error .valueError else
  let m := gBwdPass (slots d np nv R) (B.flags gl gm gb) BMem.swap
    (fun t => gBStep B gl gm gb storeB storeN storeS grP grV (κ t) t) B.base.ratio
    (fun step m => (⟨step, fun s => (m.shots s).wf, m.grad⟩ : BatchBEvent d S R)) comb nt cf
    fun s => B.base.bInit (g s)
  .ok { out := fun s => B.base.unpadAll (m.1.shots s).wf, gfP := fun s => (m.1.shots s).gfP
        gfV := fun s => (m.1.shots s).gfV, gr := m.1.grad
        events := if cb.isSome then m.2 else [] }

/-! ### The kernels -/

omit [Field R] in
theorem inPml_eq (A : CArgs d np mp nv mv R) (L : Loc d) (c : Cell d) (k : Fin d) {h : Bool}
    (hL : L k = h) : (A.inPml h c k = true) = ¬(A.bounds L).regionOf c k = .mid := by
  rw [Bounds.regionOf_mid]
  subst hL
  simp only [CArgs.bounds, CArgs.inPml]
  cases L k <;> simp only [Bool.false_eq_true, if_false, if_true, Bool.or_eq_true, decide_eq_true_eq,
    eq_iff_iff] <;> omega

omit [Field R] in
theorem In_bounds (A : CArgs d np mp nv mv R) (L : Loc d) (c : Cell d) :
    (A.bounds L).In c ↔
      (∀ j, (A.acc.pad : ℤ) ≤ c j ∧ c j < A.n j - A.acc.pad + 1) ∧
        ∀ k, L k = true → c k < A.n k - A.acc.pad := by
  simp only [Bounds.In, CArgs.bounds]
  constructor
  · intro h
    refine ⟨fun j => ⟨(h j).1, ?_⟩, fun k hk => ?_⟩
    · have := (h j).2
      split_ifs at this <;> omega
    · simpa [hk] using (h k).2
  · rintro ⟨h1, h2⟩ j
    refine ⟨(h1 j).1, ?_⟩
    split_ifs with hj
    · exact h2 j hj
    · exact (h1 j).2

theorem velThread_eq (A : CArgs d np mp nv mv R) (save : Bool) (sig : Fin d → Fin d → Fld d R)
    (c : Cell d) (s : Fin d → VCell d R) (i : Fin d) : velThread A save sig c s i =
      if ∀ k, vLoc i k = true → c k < A.n k - A.acc.pad then
        velBody A save sig ((A.bounds (vLoc i)).regionOf c) (i, c) (s i) else s i := by
  have h1 : ∀ j, (A.inPml (j == i) c j = true) = ¬(A.bounds (vLoc i)).regionOf c j = .mid :=
    fun j => inPml_eq A (vLoc i) c j rfl
  have h2 : (∀ k, vLoc i k = true → c k < A.n k - A.acc.pad) ↔ c i < A.n i - A.acc.pad := by
    simp [vLoc]
  simp only [h2]
  simp only [velThread, velBody, h1, ite_not, cD, vLoc, beq_iff_eq]

theorem bVelThread_eq (A : CArgs d np mp nv mv R) (load : Bool) (store : Fin d → Fld d R)
    (w : Wavefields d R) (c : Cell d) (s : Fin d → BVCell d R) (i : Fin d) :
    bVelThread A load store w c s i = if ∀ k, vLoc i k = true → c k < A.n k - A.acc.pad then
      bVelBody A load store w ((A.bounds (vLoc i)).regionOf c) (i, c) (s i) else s i := by
  have h1 : ∀ j, (A.inPml (j == i) c j = true) = ¬(A.bounds (vLoc i)).regionOf c j = .mid :=
    fun j => inPml_eq A (vLoc i) c j rfl
  have h2 : (∀ k, vLoc i k = true → c k < A.n k - A.acc.pad) ↔ c i < A.n i - A.acc.pad := by
    simp [vLoc]
  have h3 : ∀ j, (j != i) = sLoc i j j := fun j => by simp [sLoc, bne]
  simp only [h2]
  simp only [bVelThread, bVelBody, h1, h3, ite_not, cD, vLoc, beq_iff_eq]

omit [Field R] in
theorem half_nest (A : CArgs d np mp nv mv R) (p : Sh d) (c : Cell d) :
    (∀ k, nestLoc (some p) k = true → c k < A.n k - A.acc.pad) ↔
      c p.1.1 < A.n p.1.1 - A.acc.pad ∧ c p.1.2 < A.n p.1.2 - A.acc.pad := by
  constructor
  · intro h
    exact ⟨h _ (by simp [nestLoc, sLoc, p.2.ne]), h _ (by simp [nestLoc, sLoc, p.2.ne'])⟩
  · rintro ⟨h1, h2⟩ k hk
    by_cases e1 : k = p.1.1
    · exact e1 ▸ h1
    · by_cases e2 : k = p.1.2
      · exact e2 ▸ h2
      · simp [nestLoc, sLoc, e1, e2] at hk

theorem strThread_eq (A : CArgs d np mp nv mv R) (saveN saveS : Bool) (v : Fin d → Fld d R)
    (c : Cell d) (s : Option (Sh d) → SCell d R) (k : Option (Sh d)) :
    strThread A saveN saveS v c s k =
      if ∀ j, nestLoc k j = true → c j < A.n j - A.acc.pad then
        strBody A saveN saveS v ((A.bounds (nestLoc k)).regionOf c) (k, c) (s k) else s k := by
  cases k with
  | none =>
      have h1 : ∀ j, (A.inPml false c j = true) = ¬(A.bounds (nestLoc none)).regionOf c j = .mid :=
        fun j => inPml_eq A (nestLoc none) c j rfl
      rw [if_pos (by simp [nestLoc])]
      simp only [strThread, strBody, h1, ite_not, cD, Cfg.pa, Cfg.pb, Bool.false_eq_true, if_false,
        Finset.mul_sum]
  | some p =>
      have h1 : (A.inPml true c p.1.1 = true) =
          ¬(A.bounds (nestLoc (some p))).regionOf c p.1.1 = .mid :=
        inPml_eq A _ c _ (by simp [nestLoc, sLoc, p.2.ne])
      have h2 : (A.inPml true c p.1.2 = true) =
          ¬(A.bounds (nestLoc (some p))).regionOf c p.1.2 = .mid :=
        inPml_eq A _ c _ (by simp [nestLoc, sLoc, p.2.ne'])
      simp only [half_nest, strThread, strBody, h1, h2, ite_not, cD, Cfg.pa, Cfg.pb, if_true]

theorem bStrThread_eq (A : CArgs d np mp nv mv R) (loadL loadM : Bool) (storeN : Fin d → Fld d R)
    (storeS : Sh d → Fld d R) (v : Fin d → Fld d R) (ms : Fin d → Fin d → Fld d R) (c : Cell d)
    (s : Option (Sh d) → BSCell d R) (k : Option (Sh d)) :
    bStrThread A loadL loadM storeN storeS v ms c s k =
      if ∀ j, nestLoc k j = true → c j < A.n j - A.acc.pad then
        bStrBody A loadL loadM storeN storeS v ms ((A.bounds (nestLoc k)).regionOf c) (k, c) (s k)
      else s k := by
  have h0 : ∀ i j : Fin d, (i == j) = vLoc i j := fun i j => by
    simp only [vLoc]; rw [Bool.beq_comm]
  cases k with
  | none =>
      have h1 : ∀ j, (A.inPml false c j = true) = ¬(A.bounds (nestLoc none)).regionOf c j = .mid :=
        fun j => inPml_eq A (nestLoc none) c j rfl
      have h2 : ∀ (i : Fin d) (x : ℤ) (q : Fin d → R),
          (∑ k, (if k = i then A.lam c + 2 * A.mu c else A.lam c) * A.dt * A.a i x * q k) =
            (A.lam c + 2 * A.mu c) * A.dt * A.a i x * q i +
              ∑ k ∈ Finset.univ.erase i, A.lam c * A.dt * A.a i x * q k := by
        intro i x q
        rw [← Finset.add_sum_erase _ _ (Finset.mem_univ i), if_pos rfl]
        congr 1
        refine Finset.sum_congr rfl fun k hk => ?_
        rw [if_neg (Finset.ne_of_mem_erase hk)]
      rw [if_pos (by simp [nestLoc])]
      simp only [bStrThread, bStrBody, h1, h0, h2, ite_not, cD, Cfg.pa, Bool.false_eq_true, if_false]
  | some p =>
      have h1 : (A.inPml true c p.1.1 = true) =
          ¬(A.bounds (nestLoc (some p))).regionOf c p.1.1 = .mid :=
        inPml_eq A _ c _ (by simp [nestLoc, sLoc, p.2.ne])
      have h2 : (A.inPml true c p.1.2 = true) =
          ¬(A.bounds (nestLoc (some p))).regionOf c p.1.2 = .mid :=
        inPml_eq A _ c _ (by simp [nestLoc, sLoc, p.2.ne'])
      simp only [half_nest, bStrThread, bStrBody, h0, h1, h2, ite_not, cD, Cfg.pa, if_true, add_assoc]

omit [Field R] in
/-- A launch over all components is the CPU's loop nests over them. -/
theorem run_nests {σ ι : Type*} [DecidableEq ι] {ks : List ι} (hk : ks.Nodup) (hks : ∀ k, k ∈ ks)
    (loc : ι → Loc d) {order : List (Fin S × Cell d)} {A : Fin S → CArgs d np mp nv mv R}
    {pad : ℕ} {n : Fin d → ℤ} (hA : ∀ s, (A s).acc.pad = pad ∧ (A s).n = n)
    (ho : order.Perm (stagWork d S pad n)) (hb : ∀ s L, ((A s).bounds L).Ordered)
    (thread : Fin S → Cell d → (ι → σ) → ι → σ)
    (body : Fin S → (Fin d → Scalar.Region) → ι × Cell d → σ → σ)
    (h : ∀ s c x k, thread s c x k = if ∀ j, loc k j = true → c j < (A s).n j - (A s).acc.pad then
      body s (((A s).bounds (loc k)).regionOf c) (k, c) (x k) else x k)
    (m : Fin S → Cell d → ι → σ) (s : Fin S) (c : Cell d) (k : ι) :
    runKernel thread order m s c k =
      foldUpdate (body s) (regionVisits ks fun k => (A s).bounds (loc k))
        (fun kc => m s kc.2 kc.1) (k, c) := by
  rw [runKernel_stag _ ho, fold_regionVisits (fun k _ => hb s _) hk _ _ _ (hks k)]
  by_cases h1 : ∀ j, (pad : ℤ) ≤ c j ∧ c j < n j - pad + 1
  · rw [if_pos h1, h]
    refine if_congr ?_ rfl rfl
    rw [In_bounds, (hA s).1, (hA s).2, and_iff_right h1]
  · rw [if_neg h1, if_neg]
    rw [In_bounds, (hA s).1, (hA s).2]
    exact fun h2 => h1 h2.1

variable {B : Batch d np mp nv mv S R}

/-- A time step on the GPU is that of the CPU for each shot, whatever the order of the threads. -/
theorem gStep_eq (h : ∀ s, (B.cfg s).WF) (hP : Distinct B.srcP)
    (hV : ∀ k, Distinct fun s => B.srcV s k) (gl gm gb : Bool) (fp : Fin S → ℕ → Fin np → R)
    (fv : Fin S → (k : Fin d) → ℕ → Fin (nv k) → R) {κ : Sched d np nv S}
    (hκ : κ.Valid B.base.acc.pad B.base.n) (t : ℕ) (m : Fin S → FMem d mp mv R) (s : Fin S) :
    gStep B gl gm gb fp fv κ t m s = fStep (B.cfg s).fwdArgs gl gm gb (fp s) (fv s) t (m s) := by
  have hA : ∀ s, ((B.cfg s).fwdArgs).acc.pad = B.base.acc.pad ∧ ((B.cfg s).fwdArgs).n = B.base.n :=
    fun s => ⟨rfl, rfl⟩
  have hv := fun (save : Bool) (m₀ : Fin S → Cell d → Fin d → VCell d R) (s : Fin S) (c : Cell d)
      (k : Fin d) => run_nests (List.nodup_finRange d) List.mem_finRange vLoc hA hκ.vel
    (fun s => fwd_ordered (h s))
    (fun s c => velThread (B.cfg s).fwdArgs save (sigOf (m s).wf.s (m s).wf.sh) c)
    (fun s => velBody (B.cfg s).fwdArgs save (sigOf (m s).wf.s (m s).wf.sh))
    (fun s c x k => velThread_eq _ _ _ _ _ _) m₀ s c k
  have hp := fun (sn ss : Bool) (v : Fin S → Fin d → Fld d R)
      (m₀ : Fin S → Cell d → Option (Sh d) → SCell d R) (s : Fin S) (c : Cell d) (k : Option (Sh d)) =>
    run_nests (stressNests_nodup d) mem_stressNests nestLoc hA hκ.str (fun s => fwd_ordered (h s))
    (fun s c => strThread (B.cfg s).fwdArgs sn ss (v s) c)
    (fun s => strBody (B.cfg s).fwdArgs sn ss (v s))
    (fun s c x k => strThread_eq _ _ _ _ _ _ _) m₀ s c k
  have ha : ∀ k w s, addSources (κ.addV k) w (fun s => B.srcV s k) (fun s => fv s k t) s =
      addTo (w s) (B.srcV s k) (fv s k t) := fun k w s => addSources_eq (hκ.addV k) w (hV k) _ s
  have hn : ∀ k w s, addSources (κ.addP k) w B.srcP (fun s => fp s t) s =
      addTo (w s) (B.srcP s) (fp s t) := fun k w s => addSources_eq (hκ.addP k) w hP _ s
  simp only [gStep, hn, ha, hv, hp]
  rfl

theorem gBStep_eq (h : ∀ s, (B.cfg s).WF) (hbig : ∀ s, (B.cfg s).Big) (hP : Distinct B.rcvP)
    (hV : ∀ k, Distinct fun s => B.rcvV s k) (gl gm gb : Bool)
    (storeB storeN : Fin S → ℕ → Fin d → Fld d R) (storeS : Fin S → ℕ → Sh d → Fld d R)
    (grP : Fin S → ℕ → Fin mp → R) (grV : Fin S → (k : Fin d) → ℕ → Fin (mv k) → R)
    {κ : Sched d mp mv S} (hκ : κ.Valid B.base.acc.pad B.base.n) (t : ℕ)
    (m : Fin S → BMem d np nv R) (s : Fin S) :
    gBStep B gl gm gb storeB storeN storeS grP grV κ t m s =
      bStepC (B.cfg s).bwdArgs gl gm gb (storeB s) (storeN s) (storeS s) (grP s) (grV s) t (m s) := by
  have hA : ∀ s, ((B.cfg s).bwdArgs).acc.pad = B.base.acc.pad ∧ ((B.cfg s).bwdArgs).n = B.base.n :=
    fun s => ⟨rfl, rfl⟩
  have hv := fun (load : Bool) (st : Fin S → Fin d → Fld d R)
      (m₀ : Fin S → Cell d → Fin d → BVCell d R) (s : Fin S) (c : Cell d) (k : Fin d) =>
    run_nests (List.nodup_finRange d) List.mem_finRange vLoc hA hκ.vel
    (fun s => bwd_ordered (h s) (hbig s))
    (fun s c => bVelThread (B.cfg s).bwdArgs load (st s) (m s).wf c)
    (fun s => bVelBody (B.cfg s).bwdArgs load (st s) (m s).wf)
    (fun s c x k => bVelThread_eq _ _ _ _ _ _ _) m₀ s c k
  have hp := fun (ll lm : Bool) (sn : Fin S → Fin d → Fld d R) (ss : Fin S → Sh d → Fld d R)
      (v : Fin S → Fin d → Fld d R) (m₀ : Fin S → Cell d → Option (Sh d) → BSCell d R) (s : Fin S)
      (c : Cell d) (k : Option (Sh d)) =>
    run_nests (stressNests_nodup d) mem_stressNests nestLoc hA hκ.str
    (fun s => bwd_ordered (h s) (hbig s))
    (fun s c => bStrThread (B.cfg s).bwdArgs ll lm (sn s) (ss s) (v s) (m s).wf.ms c)
    (fun s => bStrBody (B.cfg s).bwdArgs ll lm (sn s) (ss s) (v s) (m s).wf.ms)
    (fun s c x k => bStrThread_eq _ _ _ _ _ _ _ _ _ _) m₀ s c k
  have ha : ∀ k w s, addSources (κ.addV k) w (fun s => B.rcvV s k) (fun s => grV s k t) s =
      addTo (w s) (B.rcvV s k) (grV s k t) := fun k w s => addSources_eq (hκ.addV k) w (hV k) _ s
  have hn : ∀ k w s, addSources (κ.addP k) w B.rcvP (fun s => grP s t) s =
      addTo (w s) (B.rcvP s) (grP s t) := fun k w s => addSources_eq (hκ.addP k) w hP _ s
  simp only [gBStep, hn, ha, hv, hp]
  rfl

/-- The forward driver on the GPU is that on the CPU. -/
theorem Batch.gpuForward_eq (h : ∀ s, (B.cfg s).WF) (hP : Distinct B.srcP)
    (hV : ∀ k, Distinct fun s => B.srcV s k) (gl gm gb : Bool) (cb : Option ℕ) (nt : ℕ)
    (fp : Fin S → ℕ → Fin np → R) (fv : Fin S → (k : Fin d) → ℕ → Fin (nv k) → R)
    (w : Fin S → Init d R) {κ : ℕ → Sched d np nv S}
    (hκ : ∀ t, (κ t).Valid B.base.acc.pad B.base.n) :
    B.gpuForward gl gm gb cb nt fp fv w κ = B.forward gl gm gb cb nt fp fv w
      (lockSteps S B.base.ratio (nt / B.base.ratio) (cb.getD (nt / B.base.ratio))) := by
  simp only [Batch.gpuForward, Batch.forward,
    gFwdPass_eq fun t m s => gStep_eq h hP hV gl gm gb fp fv (hκ t) t m s]

theorem Batch.gpuBackward_eq (h : ∀ s, (B.cfg s).WF) (hbig : ∀ s, (B.cfg s).Big)
    (hP : Distinct B.rcvP) (hV : ∀ k, Distinct fun s => B.rcvV s k) (gl gm gb : Bool) (cb : Option ℕ)
    (nt : ℕ) (storeB storeN : Fin S → ℕ → Fin d → Fld d R) (storeS : Fin S → ℕ → Sh d → Fld d R)
    (grP : Fin S → ℕ → Fin mp → R) (grV : Fin S → (k : Fin d) → ℕ → Fin (mv k) → R)
    (g : Fin S → Init d R) {κ : ℕ → Sched d mp mv S}
    (hκ : ∀ t, (κ t).Valid B.base.acc.pad B.base.n) {comb : ℕ → GIx d → List (Cell d)}
    (hcomb : ∀ step a, (comb step a).Perm (cells 0 B.base.n)) :
    B.gpuBackward gl gm gb cb nt storeB storeN storeS grP grV g κ comb =
      B.backward gl gm gb cb nt storeB storeN storeS grP grV g
        (lockStepsB S B.base.ratio (cb.getD (nt / B.base.ratio))) := by
  have hc : ∀ step a, Covers B.base.Inner (comb step a) :=
    fun step a => ⟨(hcomb step a).nodup_iff.2 (nodup_cells 0 _), fun c hi => by
      rw [(hcomb step a).mem_iff, mem_cells]
      intro k
      have h1 := hi k
      have h2 := pad_pos B.base.acc
      push_cast
      omega⟩
  have key := fun view => gBwdPass_eq (L := slots d np nv R) (F := B.flags gl gm gb)
    (swap := BMem.swap) (gstep := fun t => gBStep B gl gm gb storeB storeN storeS grP grV (κ t) t)
    (ε := BatchBEvent d S R)
    (step := fun s => bStepC (B.cfg s).bwdArgs gl gm gb (storeB s) (storeN s) (storeS s) (grP s) (grV s))
    (ratio := B.base.ratio) hc (fun x hx => decide_eq_true hx)
    (fun t m s => gBStep_eq h hbig hP hV gl gm gb storeB storeN storeS grP grV (hκ t) t m s) keeps_swap
    (fun s t => adds_bStep B s (h s) gl gm gb (storeB s) (storeN s) (storeS s) (grP s) (grV s) t)
    (fun s t m a x hx => (adds_bStep B s (h s) gl gm gb _ _ _ _ _ t).outside m a x
      (decide_eq_false hx)) view nt
    (cb.getD (nt / B.base.ratio)) fun s => B.base.bInit (g s)
  simp only [Batch.gpuBackward, Batch.backward, key]

end Dw.Elastic
