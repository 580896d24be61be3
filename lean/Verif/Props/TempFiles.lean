import Verif.Storage.Files
import Mathlib.Data.List.Basic
import Mathlib.Data.List.Induction

/-!
# Temporary files

Notation of this file: a history `es` is any interleaving of what the stores of all processes and other programs do.
-/

namespace Dw.Storage

variable {β : Type*}

/-- The data written by object `id` to its file `i`. -/
def written (es : List (FEv β)) (id i : ℕ) : List β :=
  es.flatMap fun e => match e with
    | .append id' i' data => if id' = id ∧ i' = i then data else []
    | _ => []

/-- Histories: objects and uuids are new, objects are used between creation and removal and with their own file
numbers, and other programs leave directories with such names alone. -/
structure Proper (es : List (FEv β)) : Prop where
  uuid : ∀ id base pid u n, .new id base pid u n ∈ es → u.length = 32
  distinct : es.Pairwise fun e e' => ∀ id base pid u n id' base' pid' u' n',
    e = .new id base pid u n → e' = .new id' base' pid' u' n' → id ≠ id' ∧ u ≠ u'
  append : ∀ pre id i data post, es = pre ++ .append id i data :: post →
    (∃ base pid u n, .new id base pid u n ∈ pre ∧ i < n) ∧ .close id ∉ pre ∧ ∀ keep, .closeFail id keep ∉ pre
  close : ∀ pre id post, es = pre ++ .close id :: post → ∃ base pid u n, .new id base pid u n ∈ pre
  closeFail : ∀ pre id keep post, es = pre ++ .closeFail id keep :: post →
    ∃ base pid u n, .new id base pid u n ∈ pre
  other : ∀ dir f c, .other dir f c ∈ es → ∀ pid u, u.length = 32 → dir.2 ≠ tmpName pid u

/-- No objects at first and no left-overs with the names that will be used. -/
structure Clean (w : World β) (es : List (FEv β)) : Prop where
  stores : w.stores = fun _ => none
  files : ∀ id base pid u n, .new id base pid u n ∈ es → ∀ f, w.files (base, tmpName pid u) f = none

theorem Proper.init {es : List (FEv β)} {e : FEv β} (h : Proper (es ++ [e])) : Proper es where
  uuid := fun id base pid u n hm => h.uuid id base pid u n (List.mem_append_left _ hm)
  distinct := (List.pairwise_append.1 h.distinct).1
  append := fun pre id i data post hes => h.append pre id i data (post ++ [e]) (by rw [hes]; simp)
  close := fun pre id post hes => h.close pre id (post ++ [e]) (by rw [hes]; simp)
  closeFail := fun pre id keep post hes => h.closeFail pre id keep (post ++ [e]) (by rw [hes]; simp)
  other := fun dir f c hm => h.other dir f c (List.mem_append_left _ hm)

theorem Proper.pair {es : List (FEv β)} (h : Proper es) {id base pid n id' base' pid' n' : ℕ} {u u' : String}
    (h1 : .new id base pid u n ∈ es) (h2 : .new id' base' pid' u' n' ∈ es)
    (hne : (.new id base pid u n : FEv β) ≠ .new id' base' pid' u' n') : id ≠ id' ∧ u ≠ u' := by
  obtain ⟨pre, post, rfl⟩ := List.append_of_mem h1
  have hd := h.distinct
  rw [List.pairwise_append, List.pairwise_cons] at hd
  rcases List.mem_append.1 h2 with h2 | h2
  · obtain ⟨a, b⟩ := hd.2.2 _ h2 _ List.mem_cons_self _ _ _ _ _ _ _ _ _ _ rfl rfl
    exact ⟨a.symm, b.symm⟩
  · rcases List.mem_cons.1 h2 with h2 | h2
    · exact absurd h2.symm hne
    · exact hd.2.1.1 _ h2 _ _ _ _ _ _ _ _ _ _ rfl rfl

theorem Proper.same {es : List (FEv β)} (h : Proper es) {id base pid base' pid' n n' : ℕ} {u u' : String}
    (h1 : .new id base pid u n ∈ es) (h2 : .new id base' pid' u' n' ∈ es) :
    base = base' ∧ pid = pid' ∧ u = u' ∧ n = n' := by
  by_contra hne
  refine (h.pair h1 h2 fun e => hne ?_).1 rfl
  injection e with e1 e2 e3 e4 e5
  exact ⟨e2, e3, e4, e5⟩

/-- Directories of different objects differ. -/
theorem Proper.dir_ne {es : List (FEv β)} (h : Proper es) {id base pid n id' base' pid' n' : ℕ} {u u' : String}
    (h1 : .new id base pid u n ∈ es) (h2 : .new id' base' pid' u' n' ∈ es) (hne : id ≠ id') :
    ((base, tmpName pid u) : Dir) ≠ (base', tmpName pid' u') := by
  intro e
  have hu := tmpName_inj ((h.uuid _ _ _ _ _ h1).trans (h.uuid _ _ _ _ _ h2).symm) (Prod.mk.inj e).2
  exact (h.pair h1 h2 fun e => hne (by injection e)).2 hu

theorem written_append (es : List (FEv β)) (e : FEv β) (id i : ℕ) :
    written (es ++ [e]) id i = written es id i ++ written [e] id i := by
  unfold written
  rw [List.flatMap_append]

/-- State after a history. -/
structure FInvs (w₀ : World β) (es : List (FEv β)) (w : World β) : Prop where
  store : ∀ id base pid u n, .new id base pid u n ∈ es →
    w.stores id = some ⟨(base, tmpName pid u), (List.range n).map shotName⟩
  absent : ∀ id, (∀ base pid u n, .new id base pid u n ∉ es) → w.stores id = none
  dir : ∀ id base pid u n, .new id base pid u n ∈ es →
    (w.dirs (base, tmpName pid u) = true ↔ .close id ∉ es)
  open_ : ∀ id base pid u n, .new id base pid u n ∈ es → .close id ∉ es → (∀ keep, .closeFail id keep ∉ es) →
    ∀ i < n, (w.files (base, tmpName pid u) (shotName i)).getD [] = written es id i
  closed : ∀ id base pid u n, .new id base pid u n ∈ es → .close id ∈ es → ∀ f, w.files (base, tmpName pid u) f = .none
  frame : ∀ k f, (∀ id base pid u n, .new id base pid u n ∈ es → k ≠ (base, tmpName pid u)) →
    (∀ f c, .other k f c ∉ es) → w.files k f = w₀.files k f

theorem FInvs.start {w : World β} (h : w.stores = fun _ => none) : FInvs w [] w :=
  ⟨by simp, fun id _ => by rw [h], by simp, by simp, by simp, fun _ _ _ _ => rfl⟩

theorem FInvs.step {w₀ w : World β} {es : List (FEv β)} {e : FEv β} (hp : Proper (es ++ [e]))
    (hc : Clean w₀ (es ++ [e])) (h : FInvs w₀ es w) : FInvs w₀ (es ++ [e]) (w.step e) := by
  have hold : ∀ {e'}, e' ∈ es → e' ∈ es ++ [e] := fun h => List.mem_append_left _ h
  have hlast : e ∈ es ++ [e] := by simp
  cases e with
  | new id base pid u n =>
    have hu := hp.uuid _ _ _ _ _ hlast
    -- the object is new
    have hnew : ∀ base pid u n, .new id base pid u n ∉ es := by
      intro base' pid' u' n' hm
      have := (List.pairwise_append.1 hp.distinct).2.2 _ hm _ (List.mem_singleton.2 rfl) _ _ _ _ _ _ _ _ _ _ rfl rfl
      exact this.1 rfl
    have hdir : ∀ id' base' pid' u' n', .new id' base' pid' u' n' ∈ es →
        ((base', tmpName pid' u') : Dir) ≠ (base, tmpName pid u) := fun id' base' pid' u' n' hm =>
      hp.dir_ne (hold hm) hlast fun e => hnew base' pid' u' n' (e ▸ hm)
    have hid : ∀ {id' base' pid' u' n'}, .new id' base' pid' u' n' ∈ es → id' ≠ id :=
      fun hm e => hnew _ _ _ _ (e ▸ hm)
    have hcl : .close id ∉ es := by
      intro hm
      obtain ⟨pre, post, he⟩ := List.append_of_mem hm
      obtain ⟨b, p, u', n', hn⟩ := hp.init.close pre id post he
      exact hnew b p u' n' (by rw [he]; exact List.mem_append_left _ hn)
    have hcf : ∀ keep, .closeFail id keep ∉ es := by
      intro keep hm
      obtain ⟨pre, post, he⟩ := List.append_of_mem hm
      obtain ⟨b, p, u', n', hn⟩ := hp.init.closeFail pre id keep post he
      exact hnew b p u' n' (by rw [he]; exact List.mem_append_left _ hn)
    have hfiles : ∀ f, w.files (base, tmpName pid u) f = none := by
      intro f
      rw [h.frame _ f (fun id' base' pid' u' n' hm => (hdir _ _ _ _ _ hm).symm)
        fun f c hm => hp.other _ f c (hold hm) pid u hu rfl]
      exact hc.files id base pid u n hlast f
    have hw : written es id = fun _ => [] := by
      funext i
      unfold written
      rw [List.flatMap_eq_nil_iff]
      intro e he
      cases e with
      | append id' i' data =>
        simp only
        rw [if_neg]
        rintro ⟨rfl, rfl⟩
        obtain ⟨pre, post, hes⟩ := List.append_of_mem he
        obtain ⟨⟨b, p, u', n', hn, -⟩, -⟩ := hp.init.append pre _ _ data post hes
        exact hnew b p u' n' (by rw [hes]; exact List.mem_append_left _ hn)
      | _ => rfl
    have hsplit : ∀ {id' base' pid' u' n'}, .new id' base' pid' u' n' ∈ es ++ [FEv.new id base pid u n] →
        .new id' base' pid' u' n' ∈ es ∨ id' = id ∧ base' = base ∧ pid' = pid ∧ u' = u ∧ n' = n := by
      intro id' base' pid' u' n' hm
      rcases List.mem_append.1 hm with hm | hm
      · exact .inl hm
      · have := List.mem_singleton.1 hm
        injection this with e1 e2 e3 e4 e5
        exact .inr ⟨e1, e2, e3, e4, e5⟩
    refine ⟨fun id' base' pid' u' n' hm => ?_, fun id' hm => ?_, fun id' base' pid' u' n' hm => ?_,
      fun id' base' pid' u' n' hm hcl' hcf' i hi => ?_, fun id' base' pid' u' n' hm hcl' f => ?_, fun k f hk ho => ?_⟩
    · rcases hsplit hm with hm | ⟨rfl, rfl, rfl, rfl, rfl⟩
      · show Function.update w.stores id _ id' = _
        rw [Function.update_of_ne (hid hm)]
        exact h.store _ _ _ _ _ hm
      · exact Function.update_self ..
    · have hne : id' ≠ id := by rintro rfl; exact hm _ _ _ _ hlast
      show Function.update w.stores id _ id' = _
      rw [Function.update_of_ne hne]
      exact h.absent id' fun b p u n hm' => hm b p u n (hold hm')
    · rcases hsplit hm with hm | ⟨rfl, rfl, rfl, rfl, rfl⟩
      · show Function.update w.dirs (base, tmpName pid u) true (base', tmpName pid' u') = true ↔ _
        rw [Function.update_of_ne (hdir _ _ _ _ _ hm), h.dir _ _ _ _ _ hm]
        simp
      · show Function.update w.dirs (base', tmpName pid' u') true (base', tmpName pid' u') = true ↔ _
        rw [Function.update_self]
        simp [hcl]
    · rw [written_append]
      have e2 : written [FEv.new (β := β) id base pid u n] id' i = [] := rfl
      rw [e2, List.append_nil]
      rcases hsplit hm with hm | ⟨rfl, rfl, rfl, rfl, rfl⟩
      · exact h.open_ _ _ _ _ _ hm (fun h' => hcl' (hold h')) (fun k h' => hcf' k (hold h')) i hi
      · show (w.files (base', tmpName pid' u') (shotName i)).getD [] = _
        rw [hfiles, hw]
        rfl
    · have hcl2 : .close id' ∈ es := by simpa using hcl'
      rcases hsplit hm with hm | ⟨rfl, rfl, rfl, rfl, rfl⟩
      · exact h.closed _ _ _ _ _ hm hcl2 f
      · exact absurd hcl2 hcl
    · exact h.frame k f (fun id' b p u' n' hm => hk _ _ _ _ _ (hold hm)) fun f c hm => ho f c (hold hm)
  | append id i data =>
    obtain ⟨⟨base, pid, u, n, hn, hi⟩, hcl, hcf⟩ := hp.append es id i data [] rfl
    have hst := h.store _ _ _ _ _ hn
    have hd := (h.dir _ _ _ _ _ hn).2 hcl
    have hstep : w.step (.append id i data) =
        { w with
          files := Function.update w.files (base, tmpName pid u)
            (Function.update (w.files (base, tmpName pid u)) (shotName i)
              (some ((w.files (base, tmpName pid u) (shotName i)).getD [] ++ data))) } := by
      simp only [World.step, hst]
      rw [List.getElem?_map, List.getElem?_range hi]
      simp only [Option.map_some]
      rw [if_pos hd]
    rw [hstep]
    have hsplit : ∀ {id' base' pid' u' n'}, .new id' base' pid' u' n' ∈ es ++ [FEv.append id i data] →
        .new id' base' pid' u' n' ∈ es := fun hm => by simpa using hm
    refine ⟨fun id' base' pid' u' n' hm => h.store _ _ _ _ _ (hsplit hm),
      fun id' hm => h.absent id' fun b p u n hm' => hm b p u n (hold hm'),
      fun id' base' pid' u' n' hm => (h.dir _ _ _ _ _ (hsplit hm)).trans (by simp),
      fun id' base' pid' u' n' hm hcl' hcf' j hj => ?_, fun id' base' pid' u' n' hm hcl' f => ?_,
      fun k f hk ho => ?_⟩
    · replace hm := hsplit hm
      have hold' := h.open_ _ _ _ _ _ hm (fun h' => hcl' (hold h')) (fun k h' => hcf' k (hold h')) j hj
      rw [written_append]
      by_cases hid : id' = id
      · subst hid
        obtain ⟨rfl, rfl, rfl, rfl⟩ := hp.init.same hm hn
        simp only [Function.update_self]
        by_cases hij : j = i
        · subst hij
          rw [Function.update_self]
          simp only [Option.getD_some]
          rw [hold']
          simp [written]
        · rw [Function.update_of_ne fun e => hij (shotName_inj e), hold']
          simp [written, Ne.symm hij]
      · simp only
        rw [Function.update_of_ne (hp.init.dir_ne hm hn hid), hold']
        simp [written, Ne.symm hid]
    · replace hm := hsplit hm
      have hcl2 : .close id' ∈ es := by simpa using hcl'
      have hid : id' ≠ id := by rintro rfl; exact hcl hcl2
      simp only
      rw [Function.update_of_ne (hp.init.dir_ne hm hn hid)]
      exact h.closed _ _ _ _ _ hm hcl2 f
    · simp only
      rw [Function.update_of_ne (hk _ _ _ _ _ (hold hn))]
      exact h.frame k f (fun id' b p u' n' hm => hk _ _ _ _ _ (hold hm)) fun f c hm => ho f c (hold hm)
  | close id =>
    obtain ⟨base, pid, u, n, hn⟩ := hp.close es id [] rfl
    have hst := h.store _ _ _ _ _ hn
    have hsplit : ∀ {id' base' pid' u' n'}, .new id' base' pid' u' n' ∈ es ++ [(FEv.close id : FEv β)] →
        .new id' base' pid' u' n' ∈ es := fun hm => by simpa using hm
    have hfile : ∀ k f, (w.step (.close id)).files k f =
        if k = (base, tmpName pid u) then none else w.files k f := by
      intro k f
      simp only [World.step, hst]
      by_cases hd : w.dirs (base, tmpName pid u) = true
      · rw [if_pos hd]
        simp only [Function.update_apply]
        split_ifs <;> rfl
      · rw [if_neg hd]
        split_ifs with hk
        · rw [hk]
          refine h.closed _ _ _ _ _ hn ?_ f
          by_contra hcl
          exact hd ((h.dir _ _ _ _ _ hn).2 hcl)
        · rfl
    have hdirs : ∀ k, (w.step (.close id)).dirs k = if k = (base, tmpName pid u) then false else w.dirs k := by
      intro k
      simp only [World.step, hst]
      by_cases hd : w.dirs (base, tmpName pid u) = true
      · rw [if_pos hd]
        simp only [Function.update_apply]
      · rw [if_neg hd]
        split_ifs with hk
        · rw [hk]; simpa using hd
        · rfl
    have hstores : (w.step (.close id)).stores = w.stores := by
      simp only [World.step, hst]
      split_ifs <;> rfl
    refine ⟨fun id' base' pid' u' n' hm => by rw [hstores]; exact h.store _ _ _ _ _ (hsplit hm),
      fun id' hm => by rw [hstores]; exact h.absent id' fun b p u n hm' => hm b p u n (hold hm'),
      fun id' base' pid' u' n' hm => ?_, fun id' base' pid' u' n' hm hcl' hcf' j hj => ?_,
      fun id' base' pid' u' n' hm hcl' f => ?_, fun k f hk ho => ?_⟩
    · replace hm := hsplit hm
      rw [hdirs]
      by_cases hid : id' = id
      · subst hid
        obtain ⟨rfl, rfl, rfl, rfl⟩ := hp.init.same hm hn
        simp
      · rw [if_neg (hp.init.dir_ne hm hn hid), h.dir _ _ _ _ _ hm]
        simp [hid]
    · replace hm := hsplit hm
      have hid : id' ≠ id := by rintro rfl; exact hcl' hlast
      rw [hfile, if_neg (hp.init.dir_ne hm hn hid), written_append]
      have e2 : written [(FEv.close id : FEv β)] id' j = [] := rfl
      rw [e2, List.append_nil]
      exact h.open_ _ _ _ _ _ hm (fun h' => hcl' (hold h')) (fun k h' => hcf' k (hold h')) j hj
    · replace hm := hsplit hm
      rw [hfile]
      by_cases hid : id' = id
      · subst hid
        obtain ⟨rfl, rfl, rfl, rfl⟩ := hp.init.same hm hn
        exact if_pos rfl
      · rw [if_neg (hp.init.dir_ne hm hn hid)]
        refine h.closed _ _ _ _ _ hm ?_ f
        simpa [hid] using hcl'
    · rw [hfile, if_neg (hk _ _ _ _ _ (hold hn))]
      exact h.frame k f (fun id' b p u' n' hm => hk _ _ _ _ _ (hold hm)) fun f c hm => ho f c (hold hm)
  | closeFail id keep =>
    obtain ⟨base, pid, u, n, hn⟩ := hp.closeFail es id keep [] rfl
    have hst := h.store _ _ _ _ _ hn
    have hsplit : ∀ {id' base' pid' u' n'}, .new id' base' pid' u' n' ∈ es ++ [(FEv.closeFail id keep : FEv β)] →
        .new id' base' pid' u' n' ∈ es := fun hm => by simpa using hm
    have hfile : ∀ k f, k ≠ (base, tmpName pid u) → (w.step (.closeFail id keep)).files k f = w.files k f := by
      intro k f hk
      simp only [World.step, hst]
      split_ifs
      · simp only
        rw [Function.update_of_ne hk]
      · rfl
    have hself : ∀ f, w.files (base, tmpName pid u) f = none →
        (w.step (.closeFail id keep)).files (base, tmpName pid u) f = none := by
      intro f hf
      simp only [World.step, hst]
      split_ifs
      · simp only [Function.update_self, hf]
        split_ifs <;> rfl
      · exact hf
    have hrest : (w.step (.closeFail id keep)).stores = w.stores ∧ (w.step (.closeFail id keep)).dirs = w.dirs := by
      simp only [World.step, hst]
      split_ifs <;> exact ⟨rfl, rfl⟩
    refine ⟨fun id' base' pid' u' n' hm => by rw [hrest.1]; exact h.store _ _ _ _ _ (hsplit hm),
      fun id' hm => by rw [hrest.1]; exact h.absent id' fun b p u n hm' => hm b p u n (hold hm'),
      fun id' base' pid' u' n' hm => ?_, fun id' base' pid' u' n' hm hcl' hcf' j hj => ?_,
      fun id' base' pid' u' n' hm hcl' f => ?_, fun k f hk ho => ?_⟩
    · rw [hrest.2, h.dir _ _ _ _ _ (hsplit hm)]
      simp
    · replace hm := hsplit hm
      have hid : id' ≠ id := by rintro rfl; exact hcf' keep hlast
      rw [hfile _ _ (hp.init.dir_ne hm hn hid), written_append]
      have e2 : written [(FEv.closeFail id keep : FEv β)] id' j = [] := rfl
      rw [e2, List.append_nil]
      exact h.open_ _ _ _ _ _ hm (fun h' => hcl' (hold h')) (fun k h' => hcf' k (hold h')) j hj
    · replace hm := hsplit hm
      have hcl2 : .close id' ∈ es := by simpa using hcl'
      by_cases hid : id' = id
      · subst hid
        obtain ⟨rfl, rfl, rfl, rfl⟩ := hp.init.same hm hn
        exact hself f (h.closed _ _ _ _ _ hm hcl2 f)
      · rw [hfile _ _ (hp.init.dir_ne hm hn hid)]
        exact h.closed _ _ _ _ _ hm hcl2 f
    · rw [hfile _ _ (hk _ _ _ _ _ (hold hn))]
      exact h.frame k f (fun id' b p u' n' hm => hk _ _ _ _ _ (hold hm)) fun f c hm => ho f c (hold hm)
  | other d f c =>
    have hsplit : ∀ {id' base' pid' u' n'}, .new id' base' pid' u' n' ∈ es ++ [(FEv.other d f c : FEv β)] →
        .new id' base' pid' u' n' ∈ es := fun hm => by simpa using hm
    have hne : ∀ {id' base' pid' u' n'}, .new id' base' pid' u' n' ∈ es → ((base', tmpName pid' u') : Dir) ≠ d := by
      intro id' base' pid' u' n' hm e
      exact hp.other d f c hlast pid' u' (hp.init.uuid _ _ _ _ _ hm) (by rw [← e])
    have hfile : ∀ k g, k ≠ d → (w.step (.other d f c)).files k g = w.files k g := by
      intro k g hk
      simp only [World.step]
      rw [Function.update_of_ne hk]
    refine ⟨fun id' base' pid' u' n' hm => h.store _ _ _ _ _ (hsplit hm),
      fun id' hm => h.absent id' fun b p u n hm' => hm b p u n (hold hm'),
      fun id' base' pid' u' n' hm => (h.dir _ _ _ _ _ (hsplit hm)).trans (by simp),
      fun id' base' pid' u' n' hm hcl' hcf' j hj => ?_, fun id' base' pid' u' n' hm hcl' g => ?_,
      fun k g hk ho => ?_⟩
    · replace hm := hsplit hm
      rw [hfile _ _ (hne hm), written_append]
      have e2 : written [(FEv.other d f c : FEv β)] id' j = [] := rfl
      rw [e2, List.append_nil]
      exact h.open_ _ _ _ _ _ hm (fun h' => hcl' (hold h')) (fun k h' => hcf' k (hold h')) j hj
    · replace hm := hsplit hm
      rw [hfile _ _ (hne hm)]
      exact h.closed _ _ _ _ _ hm (by simpa using hcl') g
    · rw [hfile _ _ (by rintro rfl; exact ho f c hlast)]
      exact h.frame k g (fun id' b p u' n' hm => hk _ _ _ _ _ (hold hm)) fun f c hm => ho f c (hold hm)

theorem FInvs.run {w : World β} {es : List (FEv β)} (hp : Proper es) (hc : Clean w es) : FInvs w es (w.run es) := by
  induction es using List.reverseRecOn with
  | nil => exact FInvs.start hc.stores
  | append_singleton es e ih =>
    have := ih hp.init ⟨hc.stores, fun id b p u n hm => hc.files id b p u n (List.mem_append_left _ hm)⟩
    unfold World.run at this ⊢
    rw [List.foldl_append]
    exact this.step hp hc

/-! ## C122 -/

/-- **C122** At any time before its removal, file `i` of a store contains the data that this store wrote to it, and
nothing else, whatever other stores of this or of other processes do, in the same or in other directories. -/
theorem C122_own_data {w : World β} {es : List (FEv β)} (hp : Proper es) (hc : Clean w es)
    {id base pid n : ℕ} {u : String} (hn : .new id base pid u n ∈ es) (hcl : .close id ∉ es)
    (hcf : ∀ keep, .closeFail id keep ∉ es) {i : ℕ} (hi : i < n) :
    (w.run es).content id i = written es id i := by
  have h := FInvs.run hp hc
  unfold World.content
  rw [h.store _ _ _ _ _ hn]
  simp only
  rw [List.getElem?_map, List.getElem?_range hi]
  exact h.open_ _ _ _ _ _ hn hcl hcf i hi

/-- **C122** A new store has only empty files. -/
theorem C122_empty {w : World β} {es : List (FEv β)} {id base pid n : ℕ} {u : String}
    (hp : Proper (es ++ [.new id base pid u n])) (hc : Clean w (es ++ [.new id base pid u n])) (i : ℕ) :
    (w.run (es ++ [.new id base pid u n])).content id i = [] := by
  have h := FInvs.run hp hc
  have hnew : ∀ base pid u n, .new id base pid u n ∉ es := by
    intro base' pid' u' n' hm
    have := (List.pairwise_append.1 hp.distinct).2.2 _ hm _ (List.mem_singleton.2 rfl) _ _ _ _ _ _ _ _ _ _ rfl rfl
    exact this.1 rfl
  by_cases hi : i < n
  · rw [C122_own_data hp hc (List.mem_append_right _ (List.mem_singleton.2 rfl)) ?_ ?_ hi]
    · unfold written
      rw [List.flatMap_eq_nil_iff]
      intro e he
      cases e with
      | append id' i' data =>
        simp only
        rw [if_neg]
        rintro ⟨rfl, rfl⟩
        obtain ⟨pre, post, hes⟩ := List.append_of_mem (show FEv.append id' i' data ∈ es by simpa using he)
        obtain ⟨⟨b, p, u', n', hn, -⟩, -⟩ := hp.init.append pre _ _ data post hes
        exact hnew b p u' n' (by rw [hes]; exact List.mem_append_left _ hn)
      | _ => rfl
    · intro hm
      obtain ⟨pre, post, he⟩ := List.append_of_mem (show FEv.close id ∈ es by simpa using hm)
      obtain ⟨b, p, u', n', hn⟩ := hp.init.close pre id post he
      exact hnew b p u' n' (by rw [he]; exact List.mem_append_left _ hn)
    · intro keep hm
      obtain ⟨pre, post, he⟩ := List.append_of_mem (show FEv.closeFail id keep ∈ es by simpa using hm)
      obtain ⟨b, p, u', n', hn⟩ := hp.init.closeFail pre id keep post he
      exact hnew b p u' n' (by rw [he]; exact List.mem_append_left _ hn)
  · unfold World.content
    rw [h.store _ _ _ _ _ (List.mem_append_right _ (List.mem_singleton.2 rfl))]
    simp only
    rw [List.getElem?_eq_none (by simp; omega)]

/-- **C122** After its removal (unless that failed) neither the directory nor a file of a store exists, however often
`close` is called (by the user, by the destructor). -/
theorem C122_removed {w : World β} {es : List (FEv β)} (hp : Proper es) (hc : Clean w es)
    {id base pid n : ℕ} {u : String} (hn : .new id base pid u n ∈ es) (hcl : .close id ∈ es) :
    (w.run es).dirs (base, tmpName pid u) = false ∧ ∀ f, (w.run es).files (base, tmpName pid u) f = none := by
  have h := FInvs.run hp hc
  refine ⟨?_, h.closed _ _ _ _ _ hn hcl⟩
  have := (h.dir _ _ _ _ _ hn).not.2 (not_not.2 hcl)
  simpa using this

/-- **C122** Nothing else in the file system is changed. -/
theorem C122_others {w : World β} {es : List (FEv β)} (hp : Proper es) (hc : Clean w es) {dir : Dir} {f : String}
    (hd : ∀ id base pid u n, .new id base pid u n ∈ es → dir ≠ (base, tmpName pid u))
    (ho : ∀ f c, .other dir f c ∉ es) : (w.run es).files dir f = w.files dir f :=
  (FInvs.run hp hc).frame dir f hd ho

/-! ## Example -/

theorem Proper.nil : Proper ([] : List (FEv β)) :=
  ⟨by simp, by simp, by simp, by simp, by simp, by simp⟩

theorem Proper.snoc {es : List (FEv β)} {e : FEv β} (h : Proper es)
    (hnew : ∀ id base pid u n, e = .new id base pid u n → u.length = 32 ∧
      ∀ id' base' pid' u' n', .new id' base' pid' u' n' ∈ es → id' ≠ id ∧ u' ≠ u)
    (happ : ∀ id i data, e = .append id i data →
      (∃ base pid u n, .new id base pid u n ∈ es ∧ i < n) ∧ .close id ∉ es ∧ ∀ keep, .closeFail id keep ∉ es)
    (hcl : ∀ id, e = .close id → ∃ base pid u n, .new id base pid u n ∈ es)
    (hcf : ∀ id keep, e = .closeFail id keep → ∃ base pid u n, .new id base pid u n ∈ es)
    (ho : ∀ dir f c, e = .other dir f c → ∀ pid u, u.length = 32 → dir.2 ≠ tmpName pid u) :
    Proper (es ++ [e]) := by
  have split : ∀ {pre x post}, es ++ [e] = pre ++ x :: post → (e = x ∧ pre = es) ∨ ∃ post', es = pre ++ x :: post' := by
    intro pre x post he
    rcases List.eq_nil_or_concat post with rfl | ⟨post', y, rfl⟩
    · obtain ⟨h1, h2⟩ := List.append_inj' (s₁ := es) (t₁ := [e]) (s₂ := pre) (t₂ := [x]) he rfl
      exact .inl ⟨by simpa using h2, h1.symm⟩
    · refine .inr ⟨post', ?_⟩
      have : es ++ [e] = (pre ++ x :: post') ++ [y] := by simpa using he
      exact (List.append_inj' this rfl).1
  refine ⟨fun id base pid u n hm => ?_, ?_, fun pre id i data post he => ?_, fun pre id post he => ?_,
    fun pre id keep post he => ?_, fun dir f c hm => ?_⟩
  · rcases List.mem_append.1 hm with hm | hm
    · exact h.uuid _ _ _ _ _ hm
    · exact (hnew _ _ _ _ _ (List.mem_singleton.1 hm).symm).1
  · refine List.pairwise_append.2 ⟨h.distinct, by simp, fun a ha b hb => ?_⟩
    intro id base pid u n id' base' pid' u' n' e1 e2
    have hb := List.mem_singleton.1 hb
    subst e1 hb
    exact (hnew _ _ _ _ _ e2).2 _ _ _ _ _ ha
  · rcases split he with ⟨h1, rfl⟩ | ⟨post', h1⟩
    · exact happ _ _ _ h1
    · exact h.append _ _ _ _ _ h1
  · rcases split he with ⟨h1, rfl⟩ | ⟨post', h1⟩
    · exact hcl _ h1
    · exact h.close _ _ _ h1
  · rcases split he with ⟨h1, rfl⟩ | ⟨post', h1⟩
    · exact hcf _ _ h1
    · exact h.closeFail _ _ _ _ h1
  · rcases List.mem_append.1 hm with hm | hm
    · exact h.other _ _ _ hm
    · exact ho _ _ _ (List.mem_singleton.1 hm).symm

/-- Two uuids. -/
def exUuid (b : Bool) : String := if b then "0123456789abcdef0123456789abcdef" else "0123456789abcdef0123456789abcde0"

/-- Two processes with stores of two files each in the same directory, writing in turn; one removes its store. -/
def exHist : List (FEv ℕ) :=
  [] ++ [.new 0 7 100 (exUuid true) 2] ++ [.new 1 7 101 (exUuid false) 2] ++ [.append 0 1 [1, 2]] ++
    [.append 1 1 [3]] ++ [.append 0 1 [4]] ++ [.close 1]

theorem exHist_proper : Proper exHist := by
  unfold exHist
  refine Proper.snoc (Proper.snoc (Proper.snoc (Proper.snoc (Proper.snoc (Proper.snoc Proper.nil ?_ ?_ ?_ ?_ ?_)
    ?_ ?_ ?_ ?_ ?_) ?_ ?_ ?_ ?_ ?_) ?_ ?_ ?_ ?_ ?_) ?_ ?_ ?_ ?_ ?_) ?_ ?_ ?_ ?_ ?_ <;> simp [exUuid]
  · rintro _ _ _ _ _ rfl rfl rfl rfl rfl
    decide
  · rintro _ _ _ _ _ rfl rfl rfl rfl rfl
    refine ⟨by decide, ?_⟩
    rintro _ _ _ _ _ rfl rfl rfl rfl rfl
    decide

/-- No files and objects. -/
def exWorld : World ℕ := ⟨fun _ => false, fun _ _ => none, fun _ => none⟩

theorem exWorld_clean (es : List (FEv ℕ)) : Clean exWorld es := ⟨rfl, fun _ _ _ _ _ _ _ => rfl⟩

/-- Store 0 has what it wrote, and store 1 is gone. -/
example : (exWorld.run exHist).content 0 1 = [1, 2, 4] ∧
    (exWorld.run exHist).dirs (7, tmpName 101 (exUuid false)) = false := by
  refine ⟨?_, (C122_removed exHist_proper (exWorld_clean _) (n := 2) (id := 1) (by simp [exHist]) (by simp [exHist])).1⟩
  rw [C122_own_data exHist_proper (exWorld_clean _) (base := 7) (pid := 100) (u := exUuid true) (n := 2)
    (by simp [exHist]) (by simp [exHist]) (by simp [exHist]) (by omega)]
  rfl

/-- That uuids differ is needed: with `exist_ok=True` a second store of the same name reads what the first wrote. -/
theorem C122_uuids_needed : ∃ es : List (FEv ℕ), (exWorld.run es).content 1 0 = [5] ∧ written es 1 0 = [] :=
  ⟨[.new 0 7 100 (exUuid true) 1, .append 0 0 [5], .new 1 7 100 (exUuid true) 1], by
    simp [World.run, World.step, World.content, exWorld], rfl⟩

end Dw.Storage
