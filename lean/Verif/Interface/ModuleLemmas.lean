import Verif.Interface.Module
import Mathlib.Tactic.Common

/-!
# Lemmas about the binding of arguments
-/

namespace Dw.Interface

variable {V W : Type*}

/-- The values of all parameters, the defaults filled in. -/
def boundAll (lit : String → V) (sig : List Param) (g : List (String × V)) : List (String × V) :=
  sig.map fun p => (p.name, (g.lookup p.name).getD (lit (p.dflt.getD "")))

theorem mapM_ok {α β : Type*} {f : α → Except PyErr β} {g : α → β} :
    ∀ {l : List α}, (∀ x ∈ l, f x = .ok (g x)) → l.mapM f = .ok (l.map g)
  | [], _ => rfl
  | x :: l, h => by
    rw [List.mapM_cons, h x (by simp), mapM_ok fun y hy => h y (by simp [hy])]; rfl

theorem mapM_of_ok {α β : Type*} {f : α → Except PyErr β} :
    ∀ {l : List α} {b : List β}, l.mapM f = .ok b → ∀ x ∈ l, ∃ y, f x = .ok y
  | [], _, _ => by simp
  | x :: l, b, h => by
    rw [List.mapM_cons] at h
    cases hx : f x with
    | error e => rw [hx] at h; cases h
    | ok y =>
      rw [hx] at h
      cases hl : l.mapM f with
      | error e => exact absurd h (by rw [hl]; exact fun h => nomatch h)
      | ok ys =>
        intro z hz
        rcases List.mem_cons.1 hz with rfl | hz
        · exact ⟨y, hx⟩
        · exact mapM_of_ok hl z hz

theorem lookup_none {g : List (String × W)} {n : String} :
    g.lookup n = none ↔ n ∉ g.map Prod.fst := by
  induction g with
  | nil => simp
  | cons x g ih =>
    obtain ⟨m, w⟩ := x
    rw [List.lookup_cons]
    by_cases h : n = m
    · subst h; simp
    · have : (n == m) = false := by simpa using h
      rw [this]; simp [ih, h]

theorem lookup_append (g g' : List (String × W)) (n : String) :
    (g ++ g').lookup n = (g.lookup n).or (g'.lookup n) := by
  induction g with
  | nil => simp
  | cons x g ih =>
    obtain ⟨m, w⟩ := x
    rw [List.cons_append, List.lookup_cons, List.lookup_cons]
    cases n == m <;> simp [ih]

theorem lookup_map (f : String → W → V) (g : List (String × W)) (n : String) :
    (g.map fun x => (x.1, f x.1 x.2)).lookup n = (g.lookup n).map (f n) := by
  induction g with
  | nil => simp
  | cons x g ih =>
    obtain ⟨m, w⟩ := x
    rw [List.map_cons, List.lookup_cons, List.lookup_cons]
    by_cases h : n = m
    · subst h; simp
    · have : (n == m) = false := by simpa using h
      simp only [this]; exact ih

theorem lookup_filter (f : String → Bool) (g : List (String × W)) (n : String) :
    (g.filter fun x => f x.1).lookup n = if f n then g.lookup n else none := by
  induction g with
  | nil => simp
  | cons x g ih =>
    obtain ⟨m, w⟩ := x
    rw [List.filter_cons, List.lookup_cons]
    by_cases h : n = m
    · subst h
      by_cases hf : f n
      · simp [hf]
      · simp [hf, ih]
    · have : (n == m) = false := by simpa using h
      by_cases hf : f m
      · simp [hf, this, ih, List.lookup_cons]
      · simp [hf, this, ih]

theorem lookup_bound {lit : String → V} {g : List (String × V)} :
    ∀ {sig : List Param}, (sig.map Param.name).Nodup → ∀ {p : Param}, p ∈ sig →
      (boundAll lit sig g).lookup p.name = some ((g.lookup p.name).getD (lit (p.dflt.getD "")))
  | [], _, _, h => by simp at h
  | q :: sig, hn, p, h => by
    rw [List.map_cons, List.nodup_cons] at hn
    rw [boundAll, List.map_cons, List.lookup_cons]
    by_cases he : p.name = q.name
    · have : p = q := by
        rcases List.mem_cons.1 h with rfl | h
        · rfl
        · exact absurd (List.mem_map.2 ⟨p, h, he⟩) hn.1
      subst this; simp
    · have hb : (p.name == q.name) = false := by simpa using he
      rw [hb]
      rcases List.mem_cons.1 h with rfl | h
      · exact absurd rfl he
      · exact lookup_bound hn.2 h

theorem bindArgs_ok {lit : String → V} {sig : List Param} {a : Actuals V}
    {b : List (String × V)} :
    bindArgs lit sig a = .ok b ↔ a.pos.length ≤ sig.length ∧
      ((given sig a.pos a.kw).map Prod.fst).Nodup ∧
      (∀ x ∈ given sig a.pos a.kw, x.1 ∈ sig.map Param.name) ∧
      (∀ p ∈ sig, p.dflt = none → p.name ∈ (given sig a.pos a.kw).map Prod.fst) ∧
      b = boundAll lit sig (given sig a.pos a.kw) := by
  have one : ∀ p : Param, (p.dflt = none → p.name ∈ (given sig a.pos a.kw).map Prod.fst) →
      boundOne lit (given sig a.pos a.kw) p = .ok (p.name,
        ((given sig a.pos a.kw).lookup p.name).getD (lit (p.dflt.getD ""))) := by
    intro p hp
    unfold boundOne
    cases h : (given sig a.pos a.kw).lookup p.name with
    | some v => rfl
    | none =>
      cases hd : p.dflt with
      | some s => rfl
      | none => exact absurd (hp hd) (lookup_none.1 h)
  constructor
  · intro h
    unfold bindArgs at h
    split_ifs at h with h1 h2 h3
    have hr : ∀ p ∈ sig, p.dflt = none → p.name ∈ (given sig a.pos a.kw).map Prod.fst := by
      intro p hp hd
      obtain ⟨y, hy⟩ := mapM_of_ok h p hp
      by_contra hc
      rw [boundOne, lookup_none.2 hc, hd] at hy
      cases hy
    refine ⟨by omega, by simpa using h2, by simpa using h3, hr, ?_⟩
    rw [mapM_ok fun p hp => one p (hr p hp)] at h
    exact (Except.ok.inj h).symm
  · rintro ⟨h1, h2, h3, h4, rfl⟩
    unfold bindArgs
    rw [if_neg (by omega), if_neg (by simpa using h2), if_neg (by simpa using h3)]
    exact mapM_ok fun p hp => one p (h4 p hp)

/-- The names an expression refers to. -/
def InitExpr.names : InitExpr → List String
  | .arg n => [n]
  | .param n f => [n, f]

def SiteExpr.args : SiteExpr → List String
  | .arg n => [n]
  | .attr _ => []

def SiteExpr.attrs : SiteExpr → List String
  | .arg _ => []
  | .attr n => [n]

/-- What the tables of a class must look like for the class to forward its arguments faithfully: `models`
are the parameters kept as `torch.nn.Parameter`, `flag n` the parameter of `__init__` that says whether
model `n` requires gradients.  Decidable, so checked for the four classes by evaluation. -/
structure ModuleClass.Faithful (M : ModuleClass) (models : List String) (flag : String → String) :
    Prop where
  nodup_init : (M.initSig.map Param.name).Nodup
  nodup_fwd : (M.fwdSig.map Param.name).Nodup
  count : M.callPos.length ≤ M.funSig.length
  once : ((given M.funSig M.callPos M.callKw).map Prod.fst).Nodup
  known : ∀ x ∈ given M.funSig M.callPos M.callKw, x.1 ∈ M.funSig.map Param.name
  sites : ∀ p ∈ M.funSig,
    (p ∈ M.fwdSig ∧ p.name ∉ M.initSig.map Param.name ∧
      (given M.funSig M.callPos M.callKw).lookup p.name = some (.arg p.name)) ∨
    (p ∈ M.initSig ∧ p.name ∉ models ∧ p.name ∉ models.map flag ∧
      p.name ∉ M.fwdSig.map Param.name ∧ ∃ x ∈ M.attrs, M.attrs.lookup x.1 = some (.arg p.name) ∧
      (given M.funSig M.callPos M.callKw).lookup p.name = some (.attr x.1)) ∨
    (p ∈ M.initSig ∧ p.name ∈ models ∧ p.dflt = none ∧ p.name ∉ models.map flag ∧
      p.name ∉ M.fwdSig.map Param.name ∧ ⟨flag p.name, some "False"⟩ ∈ M.initSig ∧
      ∃ x ∈ M.attrs, M.attrs.lookup x.1 = some (.param p.name (flag p.name)) ∧
      (given M.funSig M.callPos M.callKw).lookup p.name = some (.attr x.1))
  init_in : ∀ p ∈ M.initSig, p.name ∈ M.funSig.map Param.name ∨ p.name ∈ models.map flag
  fwd_in : ∀ p ∈ M.fwdSig, p.name ∈ M.funSig.map Param.name
  disjoint : ∀ p ∈ M.fwdSig, p.name ∉ M.initSig.map Param.name
  attrs_ok : ∀ x ∈ M.attrs, ∀ n ∈ x.2.names, n ∈ M.initSig.map Param.name
  pos_ok : ∀ x ∈ M.callPos, (∀ n ∈ x.args, n ∈ M.fwdSig.map Param.name) ∧
    ∀ n ∈ x.attrs, n ∈ M.attrs.map Prod.fst
  kw_ok : ∀ x ∈ M.callKw, (∀ n ∈ x.2.args, n ∈ M.fwdSig.map Param.name) ∧
    ∀ n ∈ x.2.attrs, n ∈ M.attrs.map Prod.fst

end Dw.Interface
