import Verif.Interface.ModuleLemmas

/-!
# The propagator classes give what the propagator functions give

`Scalar(v, dx, …)(dt, …)` enters the function `scalar` with the values with which the direct call
`scalar(v=Parameter(v), grid_spacing=dx, dt=dt, …)` enters it, whatever arguments the user gives, by
position or keyword, and whatever arguments they leave out.
-/

namespace Dw.Interface

variable {V : Type*}

/-- The arguments, by keyword, of the direct call: what the user gives to the class and then to the
object, without the flags `…_requires_grad` of the models, and with each model as a
`torch.nn.Parameter` that requires gradients as its flag says (by default `False`). -/
def directKw (o : PyOps V) (models : List String) (initSig fwdSig : List Param)
    (ai af : Actuals V) : List (String × V) :=
  (((given initSig ai.pos ai.kw).filter fun x =>
      x.1 ∉ models.map (· ++ "_requires_grad")).map fun x =>
    (x.1, if x.1 ∈ models then
        o.parameter x.2 (((given initSig ai.pos ai.kw).lookup (x.1 ++ "_requires_grad")).getD
          (o.lit "False"))
      else x.2)) ++ given fwdSig af.pos af.kw

/-- The classes accept the arguments that their parameters allow, and then enter the function exactly as
the direct call does. -/
def GivesTheFunction (M : ModuleClass) (models : List String) : Prop :=
  ∀ (V : Type) (o : PyOps V) (ai af : Actuals V) (b : List (String × V)),
    M.call o ai af = .ok b ↔
      (∃ e, bindArgs o.lit M.initSig ai = .ok e ∧
        ∀ c ∈ M.checks, ∃ v, e.lookup c.1 = some v ∧ o.isinstance c.2 v = true) ∧
      (∃ e, bindArgs o.lit M.fwdSig af = .ok e) ∧
      bindArgs o.lit M.funSig ⟨[], directKw o models M.initSig M.fwdSig ai af⟩ = .ok b

theorem getVar_ok {e : List (String × V)} {n : String} {v : V} (h : e.lookup n = some v) :
    getVar e n = .ok v := by rw [getVar, h]

theorem lookup_some {e : List (String × V)} {n : String} (h : n ∈ e.map Prod.fst) :
    ∃ v, e.lookup n = some v := by
  cases hl : e.lookup n with
  | some v => exact ⟨v, rfl⟩
  | none => exact absurd h (lookup_none.1 hl)

theorem boundAll_names (lit : String → V) (sig : List Param) (g : List (String × V)) :
    (boundAll lit sig g).map Prod.fst = sig.map Param.name := by
  simp [boundAll]

/-- Value of an assignment, with a filler where it is not defined. -/
def InitExpr.val (o : PyOps V) (e : List (String × V)) : InitExpr → V
  | .arg n => (e.lookup n).getD (o.lit "")
  | .param n f => o.parameter ((e.lookup n).getD (o.lit "")) ((e.lookup f).getD (o.lit ""))

def SiteExpr.val (o : PyOps V) (self e : List (String × V)) : SiteExpr → V
  | .arg n => (e.lookup n).getD (o.lit "")
  | .attr n => (self.lookup n).getD (o.lit "")

variable {M : ModuleClass} {models : List String} {o : PyOps V} {ai af : Actuals V}

/-- The attributes of the object. -/
def ModuleClass.self (M : ModuleClass) (o : PyOps V) (e : List (String × V)) : List (String × V) :=
  M.attrs.map fun x => (x.1, x.2.val o e)

theorem init_ok (h : M.Faithful models (· ++ "_requires_grad")) {s : List (String × V)} :
    M.init o ai = .ok s ↔ ∃ e, bindArgs o.lit M.initSig ai = .ok e ∧
      (∀ c ∈ M.checks, ∃ v, e.lookup c.1 = some v ∧ o.isinstance c.2 v = true) ∧
      s = M.self o e := by
  have key : ∀ e, bindArgs o.lit M.initSig ai = .ok e →
      (M.attrs.mapM fun x => (x.2.eval o e).map fun v => (x.1, v)) =
        (.ok (M.self o e) : Except PyErr _) := by
    intro e he
    have hn : e.map Prod.fst = M.initSig.map Param.name := by
      rw [(bindArgs_ok.1 he).2.2.2.2, boundAll_names]
    refine mapM_ok fun x hx => ?_
    have := h.attrs_ok x hx
    obtain ⟨n, y⟩ := x
    cases y with
    | arg m =>
      obtain ⟨v, hv⟩ := lookup_some (e := e) (n := m) (by rw [hn]; exact this m (by simp [InitExpr.names]))
      simp only [InitExpr.eval, getVar_ok hv, InitExpr.val, hv]; rfl
    | param m f =>
      obtain ⟨v, hv⟩ := lookup_some (e := e) (n := m) (by rw [hn]; exact this m (by simp [InitExpr.names]))
      obtain ⟨w, hw⟩ := lookup_some (e := e) (n := f) (by rw [hn]; exact this f (by simp [InitExpr.names]))
      simp only [InitExpr.eval, getVar_ok hv, getVar_ok hw, InitExpr.val, hv, hw]; rfl
  have chk : ∀ e : List (String × V), M.checks.all (checkOne o e) = true ↔
      ∀ c ∈ M.checks, ∃ v, e.lookup c.1 = some v ∧ o.isinstance c.2 v = true := by
    intro e
    rw [List.all_eq_true]
    refine forall₂_congr fun c _ => ?_
    unfold checkOne
    cases e.lookup c.1 with
    | none => simp
    | some v => simp
  unfold ModuleClass.init
  cases he : bindArgs o.lit M.initSig ai with
  | error x => simp
  | ok e =>
    simp only [Except.ok.injEq]
    by_cases hc : M.checks.all (checkOne o e) = true
    · rw [if_pos hc, key e he]
      constructor
      · intro h
        exact ⟨e, rfl, (chk e).1 hc, (Except.ok.inj h).symm⟩
      · rintro ⟨_, rfl, -, rfl⟩; rfl
    · rw [if_neg hc]
      constructor
      · intro h; cases h
      · rintro ⟨_, rfl, h, -⟩; exact absurd ((chk _).2 h) hc

theorem given_map {W : Type*} (f : W → V) (sig : List Param) (pos : List W)
    (kw : List (String × W)) :
    given sig (pos.map f) (kw.map fun x => (x.1, f x.2)) =
      (given sig pos kw).map fun x => (x.1, f x.2) := by
  unfold given
  rw [List.map_append, List.zip_map_right]
  rfl

/-- If class and object accept their arguments, the function is entered with the arguments at the call in
`forward`. -/
theorem call_ok (h : M.Faithful models (· ++ "_requires_grad")) {s e : List (String × V)}
    (hi : M.init o ai = .ok s) (hs : s.map Prod.fst = M.attrs.map Prod.fst)
    (hf : bindArgs o.lit M.fwdSig af = .ok e) :
    M.call o ai af = .ok (boundAll o.lit M.funSig
      ((given M.funSig M.callPos M.callKw).map fun x => (x.1, x.2.val o s e))) := by
  have hn : e.map Prod.fst = M.fwdSig.map Param.name := by
    rw [(bindArgs_ok.1 hf).2.2.2.2, boundAll_names]
  have ev : ∀ x : SiteExpr, ((∀ n ∈ x.args, n ∈ M.fwdSig.map Param.name) ∧
      ∀ n ∈ x.attrs, n ∈ M.attrs.map Prod.fst) → x.eval s e = .ok (x.val o s e) := by
    intro x hx
    cases x with
    | arg m =>
      obtain ⟨v, hv⟩ := lookup_some (e := e) (n := m) (by rw [hn]; exact hx.1 m (by simp [SiteExpr.args]))
      simp only [SiteExpr.eval, getVar_ok hv, SiteExpr.val, hv]; rfl
    | attr m =>
      obtain ⟨v, hv⟩ := lookup_some (e := s) (n := m) (by rw [hs]; exact hx.2 m (by simp [SiteExpr.attrs]))
      simp only [SiteExpr.eval, getVar_ok hv, SiteExpr.val, hv]; rfl
  have hp : M.callPos.mapM (SiteExpr.eval s e) =
      .ok (M.callPos.map (SiteExpr.val o s e)) := mapM_ok fun x hx => ev x (h.pos_ok x hx)
  have hk : (M.callKw.mapM fun x => (x.2.eval s e).map fun v => (x.1, v)) =
      (.ok (M.callKw.map fun x => (x.1, x.2.val o s e)) : Except PyErr _) :=
    mapM_ok fun x hx => by rw [ev x.2 (h.kw_ok x hx)]; rfl
  unfold ModuleClass.call
  rw [hi, hf]
  simp only
  rw [hp, hk]
  simp only
  rw [bindArgs_ok]
  simp only [given_map]
  have hm : ((given M.funSig M.callPos M.callKw).map fun x => (x.1, x.2.val o s e)).map Prod.fst =
      (given M.funSig M.callPos M.callKw).map Prod.fst := by simp [List.map_map]
  refine ⟨by simpa using h.count, by rw [hm]; exact h.once, ?_, ?_, trivial⟩
  · intro x hx
    obtain ⟨y, hy, rfl⟩ := List.mem_map.1 hx
    exact h.known y hy
  · intro p hp _
    rw [hm]
    by_contra hc
    have := lookup_none.2 hc
    rcases h.sites p hp with ⟨-, -, hl⟩ | ⟨-, -, -, -, x, -, -, hl⟩ | ⟨-, -, -, -, -, -, x, -, -, hl⟩ <;>
      rw [this] at hl <;> cases hl

theorem lookup_direct (n : String) (hn : n ∉ models.map (· ++ "_requires_grad"))
    (o : PyOps V) (initSig fwdSig : List Param) (ai af : Actuals V) :
    (directKw o models initSig fwdSig ai af).lookup n =
      (((given initSig ai.pos ai.kw).lookup n).map fun v => if n ∈ models then
        o.parameter v (((given initSig ai.pos ai.kw).lookup (n ++ "_requires_grad")).getD
          (o.lit "False")) else v).or ((given fwdSig af.pos af.kw).lookup n) := by
  unfold directKw
  rw [lookup_append]
  congr 1
  have := lookup_map (fun (m : String) (v : V) => if m ∈ models then
        o.parameter v (((given initSig ai.pos ai.kw).lookup (m ++ "_requires_grad")).getD
          (o.lit "False")) else v) ((given initSig ai.pos ai.kw).filter fun x =>
      x.1 ∉ models.map (· ++ "_requires_grad")) n
  rw [this]
  have := lookup_filter (fun m => decide (m ∉ models.map (· ++ "_requires_grad")))
    (given initSig ai.pos ai.kw) n
  rw [this, if_pos (by simpa using hn)]

/-- The direct call is accepted. -/
theorem direct_ok (h : M.Faithful models (· ++ "_requires_grad")) {e e' : List (String × V)}
    (hi : bindArgs o.lit M.initSig ai = .ok e) (hf : bindArgs o.lit M.fwdSig af = .ok e') :
    bindArgs o.lit M.funSig ⟨[], directKw o models M.initSig M.fwdSig ai af⟩ =
      .ok (boundAll o.lit M.funSig (directKw o models M.initSig M.fwdSig ai af)) := by
  obtain ⟨-, i2, i3, i4, -⟩ := bindArgs_ok.1 hi
  obtain ⟨-, f2, f3, f4, -⟩ := bindArgs_ok.1 hf
  have hg : given M.funSig [] (directKw o models M.initSig M.fwdSig ai af) =
      directKw o models M.initSig M.fwdSig ai af := by simp [given]
  rw [bindArgs_ok]
  simp only [hg]
  refine ⟨by simp, ?_, ?_, ?_, trivial⟩
  · unfold directKw
    rw [List.map_append, List.map_map]
    refine List.Nodup.append ?_ f2 ?_
    · exact (i2.sublist (List.filter_sublist.map Prod.fst))
    · intro n hn hn'
      obtain ⟨x, hx, rfl⟩ := List.mem_map.1 hn
      obtain ⟨y, hy, hxy⟩ := List.mem_map.1 hn'
      have h1 := i3 x (List.mem_of_mem_filter hx)
      obtain ⟨p, hp, hpy⟩ := List.mem_map.1 (f3 y hy)
      refine h.disjoint p hp ?_
      rw [hpy, hxy]; exact h1
  · intro x hx
    rcases List.mem_append.1 hx with hx | hx
    · obtain ⟨y, hy, rfl⟩ := List.mem_map.1 hx
      rw [List.mem_filter] at hy
      obtain ⟨p, hp, hpy⟩ := List.mem_map.1 (i3 y hy.1)
      rcases h.init_in p hp with h1 | h1
      · rw [hpy] at h1; exact h1
      · rw [hpy] at h1
        exact absurd h1 (by simpa using hy.2)
    · obtain ⟨p, hp, hpy⟩ := List.mem_map.1 (f3 x hx)
      rw [← hpy]; exact h.fwd_in p hp
  · intro p hp hd
    by_contra hc
    have hl := lookup_none.2 hc
    rcases h.sites p hp with ⟨h1, h2, -⟩ | ⟨h1, h2, h3, -⟩ | ⟨h1, h2, h3, h4, -⟩
    · refine hc ?_
      unfold directKw
      rw [List.map_append]
      exact List.mem_append_right _ (f4 p h1 hd)
    · rw [lookup_direct _ h3] at hl
      obtain ⟨v, hv⟩ := lookup_some (i4 p h1 hd)
      rw [hv] at hl; simp at hl
    · rw [lookup_direct _ h4] at hl
      obtain ⟨v, hv⟩ := lookup_some (i4 p h1 hd)
      rw [hv] at hl; simp at hl

theorem gives (h : M.Faithful models (· ++ "_requires_grad")) : GivesTheFunction M models := by
  intro V o ai af b
  have main : ∀ e e', bindArgs o.lit M.initSig ai = .ok e →
      bindArgs o.lit M.fwdSig af = .ok e' →
      boundAll o.lit M.funSig ((given M.funSig M.callPos M.callKw).map fun x =>
        (x.1, x.2.val o (M.self o e) e')) =
      boundAll o.lit M.funSig (directKw o models M.initSig M.fwdSig ai af) := by
    intro e e' hi hf
    obtain ⟨-, i2, i3, i4, rfl⟩ := bindArgs_ok.1 hi
    obtain ⟨-, f2, f3, f4, rfl⟩ := bindArgs_ok.1 hf
    refine List.map_congr_left fun p hp => ?_
    refine congrArg (Prod.mk p.name) ?_
    have hsite := lookup_map (fun (_ : String) (x : SiteExpr) =>
      x.val o (M.self o (boundAll o.lit M.initSig (given M.initSig ai.pos ai.kw)))
        (boundAll o.lit M.fwdSig (given M.fwdSig af.pos af.kw)))
      (given M.funSig M.callPos M.callKw) p.name
    rw [hsite]
    have hself : ∀ n, (M.self o (boundAll o.lit M.initSig (given M.initSig ai.pos ai.kw))).lookup n =
        (M.attrs.lookup n).map fun x => x.val o (boundAll o.lit M.initSig
          (given M.initSig ai.pos ai.kw)) := fun n =>
      lookup_map (fun (_ : String) (x : InitExpr) => x.val o (boundAll o.lit M.initSig
          (given M.initSig ai.pos ai.kw))) M.attrs n
    rcases h.sites p hp with ⟨h1, h2, hl⟩ | ⟨h1, h2, h3, h4, x, hx, hxa, hl⟩ |
      ⟨h1, h2, h3, h4, h5, h6, x, hx, hxa, hl⟩
    · have hnone : (given M.initSig ai.pos ai.kw).lookup p.name = none := by
        rw [lookup_none]
        intro hc
        obtain ⟨y, hy, hyn⟩ := List.mem_map.1 hc
        exact h2 (hyn ▸ i3 y hy)
      have hd : (directKw o models M.initSig M.fwdSig ai af).lookup p.name =
          (given M.fwdSig af.pos af.kw).lookup p.name := by
        unfold directKw
        rw [lookup_append]
        have : (((given M.initSig ai.pos ai.kw).filter fun x =>
            x.1 ∉ models.map (· ++ "_requires_grad")).map fun x =>
            (x.1, if x.1 ∈ models then
              o.parameter x.2 (((given M.initSig ai.pos ai.kw).lookup
                (x.1 ++ "_requires_grad")).getD (o.lit "False"))
            else x.2)).lookup p.name = none := by
          rw [lookup_none]
          intro hc
          obtain ⟨y, hy, hyn⟩ := List.mem_map.1 hc
          obtain ⟨z, hz, rfl⟩ := List.mem_map.1 hy
          refine lookup_none.1 hnone (List.mem_map.2 ⟨z, List.mem_of_mem_filter hz, hyn⟩)
        rw [this]; rfl
      rw [hl, hd]
      simp only [Option.map_some, Option.getD_some, SiteExpr.val]
      rw [lookup_bound h.nodup_fwd h1]; rfl
    · rw [hl, lookup_direct _ h3]
      simp only [Option.map_some, Option.getD_some, SiteExpr.val, hself, hxa, InitExpr.val]
      rw [lookup_bound h.nodup_init h1]
      have hnone : (given M.fwdSig af.pos af.kw).lookup p.name = none := by
        rw [lookup_none]
        intro hc
        obtain ⟨y, hy, hyn⟩ := List.mem_map.1 hc
        exact h4 (hyn ▸ f3 y hy)
      rw [hnone]
      simp only [if_neg h2, Option.or_none, Option.getD_some]
      simp
    · rw [hl, lookup_direct _ h4]
      simp only [Option.map_some, Option.getD_some, SiteExpr.val, hself, hxa, InitExpr.val]
      have hfb := lookup_bound (lit := o.lit) (g := given M.initSig ai.pos ai.kw) h.nodup_init h6
      simp only at hfb
      rw [lookup_bound h.nodup_init h1, hfb]
      obtain ⟨v, hv⟩ := lookup_some (i4 p h1 h3)
      rw [hv]
      simp [if_pos h2]
  constructor
  · intro hb
    cases hi : M.init o ai with
    | error x => rw [ModuleClass.call, hi] at hb; cases hb
    | ok s =>
      cases hf : bindArgs o.lit M.fwdSig af with
      | error x => rw [ModuleClass.call, hi, hf] at hb; cases hb
      | ok e' =>
        obtain ⟨e, he, hc, rfl⟩ := (init_ok h).1 hi
        refine ⟨⟨e, he, hc⟩, ⟨e', rfl⟩, ?_⟩
        rw [direct_ok h he hf, ← main e e' he hf, ← hb]
        exact (call_ok h hi (by simp [ModuleClass.self]) hf).symm
  · rintro ⟨⟨e, he, hc⟩, ⟨e', hf⟩, hb⟩
    have hi : M.init o ai = .ok (M.self o e) := (init_ok h).2 ⟨e, he, hc, rfl⟩
    rw [call_ok h hi (by simp [ModuleClass.self]) hf, main e e' he hf, ← direct_ok h he hf, hb]

/-- Evaluates the conditions on the tables of a class. -/
macro "table" : tactic => `(tactic| constructor <;> decide +kernel)

/-- Class `Scalar` and function `scalar`. -/
theorem C108_scalar : GivesTheFunction scalarModule ["v"] := gives (by table)

/-- Class `ScalarBorn` and function `scalar_born`. -/
theorem C108_born : GivesTheFunction bornModule ["v", "scatter"] := gives (by table)

/-- Class `Acoustic` and function `acoustic`. -/
theorem C108_acoustic : GivesTheFunction acousticModule ["v", "rho"] := gives (by table)

/-- Class `Elastic` and function `elastic`. -/
theorem C108_elastic : GivesTheFunction elasticModule ["lamb", "mu", "buoyancy"] :=
  gives (by table)

/-! A call `Scalar(v, 5.0, storage_mode="cpu")(0.004, accuracy=8)`, values as text: accepted, the
function receives `accuracy = 8` and `storage_mode = "cpu"`, the model as a parameter that needs no
gradient, and the defaults otherwise. -/

def exOps : PyOps String where
  lit := id
  isinstance := fun t v => match t with
    | .bool => v == "True" || v == "False"
    | .tensor => v == "model"
  parameter := fun v f => v ++ "/" ++ f

def exInit : Actuals String := ⟨["model", "5.0"], [("storage_mode", "'cpu'")]⟩

def exFwd : Actuals String := ⟨["0.004"], [("accuracy", "8")]⟩

example : ∃ b, scalarModule.call exOps exInit exFwd = .ok b ∧ b.lookup "accuracy" = some "8" ∧
    b.lookup "v" = some "model/False" ∧ b.lookup "storage_mode" = some "'cpu'" ∧
    b.lookup "pml_width" = some "20" ∧ b.length = 32 :=
  ⟨(scalarModule.call exOps exInit exFwd).toOption.getD [], by decide +kernel⟩

/-- A misspelt keyword is refused, and so is a flag that is not a `bool`. -/
example : scalarModule.call exOps exInit ⟨["0.004"], [("acuracy", "8")]⟩ = .error .typeError ∧
    scalarModule.call exOps ⟨["model", "5.0", "1"], []⟩ exFwd = .error .typeError := by
  decide +kernel

end Dw.Interface
