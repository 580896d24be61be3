import Mathlib.Data.List.Perm.Basic
import Mathlib.Data.List.Basic
import Mathlib.Data.List.Range
import Mathlib.Logic.Relation
import Mathlib.Tactic.Common

/-!
# CUDA streams and events

The host code of the `*.cu` files enqueues commands on streams and orders them with events.
A host program is the list of commands in the order of the host calls. The device may execute
the commands in every order that respects the order within each stream and, for a wait on an
event, the last record of this event before the wait.

`Exec` is this definition of an execution (documented meaning of `cudaStreamWaitEvent` and
`cudaEventRecord`); a wait on an event that was not recorded does nothing. `Safe` walks through
the program once and tracks which operations are not known to be finished; `run_eq` shows that
a program that is safe gives the same result in every execution.
-/

namespace Dw.Gpu

/-- Commands of the host program: launch of a kernel or an asynchronous copy on a stream,
`cudaEventRecord(e, s)`, `cudaStreamWaitEvent(s, e)`. -/
inductive Cmd (S E O : Type*) where
  | launch (s : S) (o : O)
  | record (e : E) (s : S)
  | wait (s : S) (e : E)

variable {S E O σ : Type*}

/-- Stream on which a command is enqueued. -/
def Cmd.stream : Cmd S E O → S
  | .launch s _ => s
  | .record _ s => s
  | .wait s _ => s

/-- Direct dependencies of the command at position `j`: earlier commands of its stream and, for
a wait, the last record of the event before it. -/
def Edge (P : List (Cmd S E O)) (i j : ℕ) : Prop :=
  i < j ∧ ∃ ci cj, P[i]? = some ci ∧ P[j]? = some cj ∧
    (ci.stream = cj.stream ∨
      ∃ e s s', ci = .record e s ∧ cj = .wait s' e ∧
        ∀ k, i < k → k < j → ∀ s'', P[k]? ≠ some (.record e s''))

/-- `ex` is an order in which the device may execute the commands of `P`. -/
structure Exec (P : List (Cmd S E O)) (ex : List ℕ) : Prop where
  perm : ex.Perm (List.range P.length)
  order : ∀ i j, Edge P i j → ex.idxOf i < ex.idxOf j

/-- Effect of a command on the memory. -/
def Cmd.effect (sem : O → σ → σ) : Cmd S E O → σ → σ
  | .launch _ o => sem o
  | .record _ _ => id
  | .wait _ _ => id

/-- Effect of the command at position `i`. -/
def effectAt (sem : O → σ → σ) (P : List (Cmd S E O)) (i : ℕ) (x : σ) : σ :=
  match P[i]? with
  | some c => c.effect sem x
  | none => x

/-- Memory after the execution `ex`. -/
def runIn (sem : O → σ → σ) (P : List (Cmd S E O)) (ex : List ℕ) (x : σ) : σ :=
  ex.foldl (fun x i => effectAt sem P i x) x

/-- Memory after executing the commands one by one in the order of the program. -/
def run (sem : O → σ → σ) (P : List (Cmd S E O)) (x : σ) : σ :=
  P.foldl (fun x c => c.effect sem x) x

theorem run_append (sem : O → σ → σ) (P Q : List (Cmd S E O)) (x : σ) :
    run sem (P ++ Q) x = run sem Q (run sem P x) := by
  simp [run, List.foldl_append]

theorem runIn_range (sem : O → σ → σ) (P : List (Cmd S E O)) (x : σ) :
    runIn sem P (List.range P.length) x = run sem P x := by
  induction P using List.reverseRecOn generalizing x with
  | nil => rfl
  | append_singleton P c ih =>
    rw [run_append, ← ih]
    simp only [List.length_append, List.length_singleton, List.range_succ, runIn,
      List.foldl_append, List.foldl_cons, List.foldl_nil]
    have h : ∀ (l : List ℕ), (∀ i ∈ l, i < P.length) → ∀ y : σ,
        l.foldl (fun x i => effectAt sem (P ++ [c]) i x) y
          = l.foldl (fun x i => effectAt sem P i x) y := by
      intro l
      induction l with
      | nil => intro _ y; rfl
      | cons a l ihl =>
        intro hl y
        simp only [List.foldl_cons]
        rw [ihl fun i hi => hl i (List.mem_cons_of_mem _ hi)]
        congr 1
        simp only [effectAt]
        rw [List.getElem?_append_left (hl a List.mem_cons_self)]
    rw [h _ (fun i hi => List.mem_range.mp hi)]
    simp [effectAt, run]

/-- Operations not known to be finished when the next command of a stream starts, and when an
event has completed. -/
structure Pend (S E O : Type*) where
  str : S → O → Prop
  ev : E → O → Prop

/-- Nothing is pending at the start. -/
def Pend.none : Pend S E O := ⟨fun _ _ => False, fun _ _ => False⟩

/-- Pending operations after a command. -/
def Pend.next (K : Pend S E O) : Cmd S E O → Pend S E O
  | .launch s o =>
    ⟨fun s' o' => K.str s' o' ∨ (s' ≠ s ∧ o' = o), fun e o' => K.ev e o' ∨ o' = o⟩
  | .record e s =>
    ⟨K.str, fun e' o => (e' = e ∧ K.str s o) ∨ (e' ≠ e ∧ K.ev e' o)⟩
  | .wait s e =>
    ⟨fun s' o => K.str s' o ∧ (s' = s → K.ev e o), K.ev⟩

/-- The two operations can be exchanged. -/
def Comm (sem : O → σ → σ) (o o' : O) : Prop := ∀ x, sem o (sem o' x) = sem o' (sem o x)

/-- Every launched operation can be exchanged with all operations that may still be running. -/
def Safe (sem : O → σ → σ) : Pend S E O → List (Cmd S E O) → Prop
  | _, [] => True
  | K, c :: P =>
    (match c with
      | .launch s o => ∀ o', K.str s o' → Comm sem o' o
      | _ => True) ∧ Safe sem (K.next c) P

/-- `K` has at most the pending operations of `L`. -/
def Pend.Le (K L : Pend S E O) : Prop :=
  (∀ s o, K.str s o → L.str s o) ∧ ∀ e o, K.ev e o → L.ev e o

theorem Pend.Le.refl (K : Pend S E O) : K.Le K := ⟨fun _ _ h => h, fun _ _ h => h⟩

theorem Pend.Le.trans {K L M : Pend S E O} (h : K.Le L) (h' : L.Le M) : K.Le M :=
  ⟨fun s o x => h'.1 s o (h.1 s o x), fun e o x => h'.2 e o (h.2 e o x)⟩

theorem Pend.Le.next {K L : Pend S E O} (h : K.Le L) (c : Cmd S E O) : (K.next c).Le (L.next c) := by
  cases c with
  | launch s o =>
    exact ⟨fun s' o' x => x.imp (h.1 s' o') id, fun e o' x => x.imp (h.2 e o') id⟩
  | record e s =>
    exact ⟨h.1, fun e' o x => x.imp (fun y => ⟨y.1, h.1 _ _ y.2⟩) fun y => ⟨y.1, h.2 _ _ y.2⟩⟩
  | wait s e =>
    exact ⟨fun s' o x => ⟨h.1 _ _ x.1, fun y => h.2 _ _ (x.2 y)⟩, h.2⟩

theorem Safe.mono {sem : O → σ → σ} {P : List (Cmd S E O)} : ∀ {K L : Pend S E O}, K.Le L →
    Safe sem L P → Safe sem K P := by
  induction P with
  | nil => intro K L _ _; trivial
  | cons c P ih =>
    intro K L h hs
    refine ⟨?_, ih (h.next c) hs.2⟩
    have h1 := hs.1
    cases c with
    | launch s o => exact fun o' x => h1 o' (h.1 _ _ x)
    | record e s => trivial
    | wait s e => trivial

/-- Pending operations after a list of commands. -/
def Pend.after (K : Pend S E O) (P : List (Cmd S E O)) : Pend S E O := P.foldl Pend.next K

theorem Pend.after_append (K : Pend S E O) (P Q : List (Cmd S E O)) :
    K.after (P ++ Q) = (K.after P).after Q := by
  simp [Pend.after, List.foldl_append]

theorem Safe.append {sem : O → σ → σ} {P Q : List (Cmd S E O)} : ∀ {K : Pend S E O},
    Safe sem K P → Safe sem (K.after P) Q → Safe sem K (P ++ Q) := by
  induction P with
  | nil => intro K _ h; exact h
  | cons c P ih => intro K h h'; exact ⟨h.1, ih h.2 h'⟩

theorem Safe.left {sem : O → σ → σ} {P Q : List (Cmd S E O)} : ∀ {K : Pend S E O},
    Safe sem K (P ++ Q) → Safe sem K P ∧ Safe sem (K.after P) Q := by
  induction P with
  | nil => intro K h; exact ⟨trivial, h⟩
  | cons c P ih => intro K h; exact ⟨⟨h.1, (ih h.2).1⟩, (ih h.2).2⟩

/-- Operations that are not pending happen before. -/
def Inv (P : List (Cmd S E O)) (m : ℕ) (K : Pend S E O) : Prop :=
  ∀ i, i < m → ∀ s o, P[i]? = some (.launch s o) →
    (∀ s', K.str s' o ∨ ∀ j, m ≤ j → ∀ c, P[j]? = some c → c.stream = s' →
      Relation.TransGen (Edge P) i j) ∧
    (∀ e, K.ev e o ∨ ∀ j, m ≤ j → ∀ s', P[j]? = some (.wait s' e) →
      (∀ k, m ≤ k → k < j → ∀ s'', P[k]? ≠ some (.record e s'')) →
      Relation.TransGen (Edge P) i j)

theorem Inv.next {P : List (Cmd S E O)} {m : ℕ} {K : Pend S E O} (h : Inv P m K) (c : Cmd S E O)
    (hc : P[m]? = some c) : Inv P (m + 1) (K.next c) := by
  intro i hi s o ho
  rcases Nat.lt_succ_iff_lt_or_eq.mp hi with him | rfl
  · obtain ⟨h1, h2⟩ := h i him s o ho
    cases c with
    | launch s0 o0 =>
      refine ⟨fun s' => ?_, fun e => ?_⟩
      · rcases h1 s' with h1 | h1
        · exact Or.inl (Or.inl h1)
        · exact Or.inr fun j hj => h1 j (by omega)
      · rcases h2 e with h2 | h2
        · exact Or.inl (Or.inl h2)
        · refine Or.inr fun j hj s' hw hno => h2 j (by omega) s' hw fun k hk hkj s'' => ?_
          rcases Nat.eq_or_lt_of_le hk with rfl | hk
          · rw [hc]; simp
          · exact hno k hk hkj s''
    | record e0 s0 =>
      refine ⟨fun s' => ?_, fun e => ?_⟩
      · rcases h1 s' with h1 | h1
        · exact Or.inl h1
        · exact Or.inr fun j hj => h1 j (by omega)
      · by_cases he : e = e0
        · subst he
          rcases h1 s0 with h1 | h1
          · exact Or.inl (Or.inl ⟨rfl, h1⟩)
          · refine Or.inr fun j hj s' hw hno => ?_
            refine (h1 m le_rfl _ hc rfl).tail ⟨by omega, _, _, hc, hw, Or.inr ?_⟩
            exact ⟨e, s0, s', rfl, rfl, fun k hk hkj s'' => hno k (by omega) hkj s''⟩
        · rcases h2 e with h2 | h2
          · exact Or.inl (Or.inr ⟨he, h2⟩)
          · refine Or.inr fun j hj s' hw hno => h2 j (by omega) s' hw fun k hk hkj s'' => ?_
            rcases Nat.eq_or_lt_of_le hk with rfl | hk
            · rw [hc]
              intro hh
              injection hh with hh
              injection hh with hh _
              exact he hh.symm
            · exact hno k hk hkj s''
    | wait s0 e0 =>
      refine ⟨fun s' => ?_, fun e => ?_⟩
      · by_cases hs : s' = s0
        · subst hs
          rcases h1 s' with h1 | h1
          · rcases h2 e0 with h2 | h2
            · exact Or.inl ⟨h1, fun _ => h2⟩
            · refine Or.inr fun j hj c hcj hst => ?_
              refine (h2 m le_rfl s' hc fun k hk hkm => by omega).tail
                ⟨by omega, _, _, hc, hcj, Or.inl hst.symm⟩
          · exact Or.inr fun j hj => h1 j (by omega)
        · rcases h1 s' with h1 | h1
          · exact Or.inl ⟨h1, fun x => absurd x hs⟩
          · exact Or.inr fun j hj => h1 j (by omega)
      · rcases h2 e with h2 | h2
        · exact Or.inl h2
        · refine Or.inr fun j hj s' hw hno => h2 j (by omega) s' hw fun k hk hkj s'' => ?_
          rcases Nat.eq_or_lt_of_le hk with rfl | hk
          · rw [hc]; simp
          · exact hno k hk hkj s''
  · rw [hc] at ho
    injection ho with ho
    subst ho
    refine ⟨fun s' => ?_, fun e => Or.inl (Or.inr rfl)⟩
    by_cases hs : s' = s
    · subst hs
      exact Or.inr fun j hj c hcj hst =>
        Relation.TransGen.single ⟨by omega, _, _, hc, hcj, Or.inl hst.symm⟩
    · exact Or.inl (Or.inr ⟨hs, rfl⟩)

/-- In a safe program two launches that are not ordered can be exchanged. -/
theorem Safe.comm {sem : O → σ → σ} {F : List (Cmd S E O)} : ∀ (P A : List (Cmd S E O))
    {K : Pend S E O}, F = A ++ P → Inv F A.length K → Safe sem K P →
    ∀ i j, A.length ≤ j → i < j → ∀ si oi sj oj, F[i]? = some (.launch si oi) →
      F[j]? = some (.launch sj oj) → Relation.TransGen (Edge F) i j ∨ Comm sem oi oj := by
  intro P
  induction P with
  | nil =>
    intro A K hF _ _ i j hj hij si oi sj oj _ h2
    rw [hF, List.append_nil] at h2
    rw [List.getElem?_eq_none hj] at h2
    simp at h2
  | cons c P ih =>
    intro A K hF hI hS i j hj hij si oi sj oj h1 h2
    have hc : F[A.length]? = some c := by
      rw [hF, List.getElem?_append_right le_rfl]; simp
    rcases Nat.eq_or_lt_of_le hj with rfl | hj'
    · rw [hc] at h2
      injection h2 with h2
      subst h2
      rcases (hI i hij si oi h1).1 sj with h | h
      · exact Or.inr (hS.1 oi h)
      · exact Or.inl (h _ le_rfl _ hc rfl)
    · refine ih (A ++ [c]) (K := K.next c) (by simp [hF]) ?_ hS.2 i j ?_ hij si oi sj oj h1 h2
      · rw [List.length_append, List.length_singleton]
        exact hI.next c hc
      · simp only [List.length_append, List.length_singleton]
        omega

/-- Folding over two orders of the same list gives the same result if the elements that are
exchanged commute. -/
theorem foldl_perm_eq {α β : Type*} [DecidableEq α] (f : β → α → β) : ∀ (l l' : List α), l.Nodup → l.Perm l' →
    (∀ a b, a ∈ l → b ∈ l → l.idxOf a < l.idxOf b → l'.idxOf b < l'.idxOf a →
      ∀ x, f (f x a) b = f (f x b) a) →
    ∀ x, l.foldl f x = l'.foldl f x := by
  intro l
  induction l with
  | nil => intro l' _ hp _ x; rw [List.nil_perm.mp hp]
  | cons a l ih =>
    intro l' hn hp hc x
    have ha : a ∈ l' := hp.subset List.mem_cons_self
    obtain ⟨p, q, rfl⟩ := List.append_of_mem ha
    have hn' : (p ++ a :: q).Nodup := hp.nodup_iff.mp hn
    have hap : a ∉ p := fun h => by
      have := (List.nodup_append.mp hn').2.2 a h a List.mem_cons_self
      exact this rfl
    have hpl : ∀ b ∈ p, b ∈ l ∧ b ≠ a := by
      intro b hb
      have hba : b ≠ a := fun h => hap (h ▸ hb)
      have : b ∈ a :: l := hp.symm.subset (List.mem_append_left _ hb)
      exact ⟨(List.mem_cons.mp this).resolve_left hba, hba⟩
    -- move `a` to the front of the second list
    have hmove : ∀ (p' : List α), (∀ b ∈ p', ∀ x, f (f x a) b = f (f x b) a) → ∀ x,
        (p' ++ a :: q).foldl f x = (a :: (p' ++ q)).foldl f x := by
      intro p'
      induction p' with
      | nil => intro _ x; rfl
      | cons b p' ihp =>
        intro h x
        have h1 := ihp (fun b hb => h b (List.mem_cons_of_mem _ hb)) (f x b)
        simp only [List.cons_append, List.foldl_cons] at h1 ⊢
        rw [h1, h b List.mem_cons_self]
    have hcomm : ∀ b ∈ p, ∀ x, f (f x a) b = f (f x b) a := by
      intro b hb
      obtain ⟨hbl, hba⟩ := hpl b hb
      refine hc a b List.mem_cons_self (List.mem_cons_of_mem _ hbl) ?_ ?_
      · rw [List.idxOf_cons_self, List.idxOf_cons_ne _ (Ne.symm hba)]; omega
      · rw [List.idxOf_append_of_mem hb, List.idxOf_append_of_notMem hap, List.idxOf_cons_self]
        have := List.idxOf_lt_length_of_mem hb
        omega
    rw [hmove p hcomm x]
    simp only [List.foldl_cons]
    have hpq : l.Perm (p ++ q) := by
      have := hp.trans List.perm_middle
      exact this.cons_inv
    have hnl : l.Nodup := (List.nodup_cons.mp hn).2
    have hal : a ∉ l := (List.nodup_cons.mp hn).1
    refine ih (p ++ q) hnl hpq ?_ _
    intro b c hb hcl hbc hcb
    have hb' : b ≠ a := fun h => hal (h ▸ hb)
    have hc' : c ≠ a := fun h => hal (h ▸ hcl)
    refine hc b c (List.mem_cons_of_mem _ hb) (List.mem_cons_of_mem _ hcl) ?_ ?_
    · rw [List.idxOf_cons_ne _ (Ne.symm hb'), List.idxOf_cons_ne _ (Ne.symm hc')]; omega
    · have hidx : ∀ d, d ≠ a → (p ++ a :: q).idxOf d
          = if d ∈ p then (p ++ q).idxOf d else (p ++ q).idxOf d + 1 := by
        intro d hd
        split_ifs with hdp
        · rw [List.idxOf_append_of_mem hdp, List.idxOf_append_of_mem hdp]
        · rw [List.idxOf_append_of_notMem hdp, List.idxOf_append_of_notMem hdp,
            List.idxOf_cons_ne _ (Ne.symm hd)]
          omega
      have hlt : ∀ d, d ∈ p → (p ++ q).idxOf d < p.length := fun d hd => by
        rw [List.idxOf_append_of_mem hd]; exact List.idxOf_lt_length_of_mem hd
      have hge : ∀ d, d ∉ p → p.length ≤ (p ++ q).idxOf d := fun d hd => by
        rw [List.idxOf_append_of_notMem hd]; omega
      rw [hidx b hb', hidx c hc']
      by_cases hbp : b ∈ p <;> by_cases hcp : c ∈ p <;> simp only [hbp, hcp, if_true, if_false]
      · exact hcb
      · have := hlt b hbp; have := hge c hcp; omega
      · omega
      · omega

/-- A safe program gives the result of its sequential execution in every execution. -/
theorem run_eq {sem : O → σ → σ} {P : List (Cmd S E O)} (hS : Safe sem Pend.none P)
    {ex : List ℕ} (hex : Exec P ex) (x : σ) : runIn sem P ex x = run sem P x := by
  rw [← runIn_range]
  unfold runIn
  symm
  refine foldl_perm_eq _ _ _ List.nodup_range hex.perm.symm ?_ x
  intro i j hi hj hij hji y
  have hidx : ∀ k, k ∈ List.range P.length → (List.range P.length).idxOf k = k := by
    intro k hk
    have hk' := List.mem_range.mp hk
    have h := List.nodup_range (n := P.length)
    have h2 := h.idxOf_getElem k (by simpa using hk')
    simpa using h2
  rw [hidx i hi, hidx j hj] at hij
  have hTG : ¬ Relation.TransGen (Edge P) i j := by
    intro h
    have : ex.idxOf i < ex.idxOf j := by
      clear hij hji hi hj
      induction h with
      | single h => exact hex.order _ _ h
      | tail _ h ih => exact ih.trans (hex.order _ _ h)
    omega
  have hI : Inv P ([] : List (Cmd S E O)).length Pend.none := by
    intro i hi; simp at hi
  simp only [effectAt]
  rcases hPi : P[i]? with _ | ci
  · rfl
  rcases hPj : P[j]? with _ | cj
  · rfl
  rcases ci with ⟨si, oi⟩ | ⟨ei, si⟩ | ⟨si, ei⟩
  · rcases cj with ⟨sj, oj⟩ | ⟨ej, sj⟩ | ⟨sj, ej⟩
    · rcases hS.comm P [] rfl hI i j (Nat.zero_le _) hij si oi sj oj hPi hPj with h | h
      · exact absurd h hTG
      · exact (h y).symm
    · rfl
    · rfl
  · rfl
  · rfl

end Dw.Gpu
