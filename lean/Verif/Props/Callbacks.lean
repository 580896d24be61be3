import Mathlib.Tactic.IntervalCases
import Verif.Interface.Callbacks
import Verif.Interface.Guards

/-!
# C117: callbacks show every quantity under its own name

The names of the wavefields are those of the arguments of the propagator functions through which they are given
(`Guards.wfs`, in the order in which they are passed on).
-/

namespace Dw.Interface

variable {α : Type}

/-- The dictionary shows the values `l` under the names `names`, and nothing else. -/
def Shows (d : List (String × α)) (names : List String) (l : List α) : Prop :=
  names.map (dictGet d) = l.map some ∧ ∀ e ∈ d, e.1 ∈ names

theorem Shows.get {d : List (String × α)} {names : List String} {l : List α} (h : Shows d names l) {i : ℕ}
    {name : String} (hn : names[i]? = some name) : dictGet d name = l[i]? := by
  have := congrArg (·[i]?) h.1
  simp only [List.getElem?_map, hn, Option.map_some] at this
  cases hl : l[i]? with
  | none => rw [hl] at this; cases this
  | some a =>
    rw [hl] at this
    simpa using this

/-- Lists of known length. -/
theorem list4 {l : List α} (h : l.length = 4) : ∃ a b c d, l = [a, b, c, d] := by
  match l, h with
  | [a, b, c, d], _ => exact ⟨a, b, c, d, rfl⟩

theorem list6 {l : List α} (h : l.length = 6) : ∃ a b c d e f, l = [a, b, c, d, e, f] := by
  match l, h with
  | [a, b, c, d, e, f], _ => exact ⟨a, b, c, d, e, f, rfl⟩

theorem list8 {l : List α} (h : l.length = 8) : ∃ a b c d e f g i, l = [a, b, c, d, e, f, g, i] := by
  match l, h with
  | [a, b, c, d, e, f, g, i], _ => exact ⟨a, b, c, d, e, f, g, i, rfl⟩

/-- **C117** `scalar`: forward and backward callbacks of the compiled backend and forward callbacks of the Python
backend show each wavefield under the name of its argument. -/
theorem C117_scalar {n : ℕ} (h1 : 1 ≤ n) (h3 : n ≤ 3) (l : List α) (hl : l.length = 2 + 2 * n) :
    (∃ d, scalarShown n l = .ok d ∧ Shows d (scalarGuards.wfs n) l) ∧
    (∃ d, scalarShownPy n l = .ok d ∧ Shows d (scalarGuards.wfs n) l) := by
  interval_cases n
  · obtain ⟨a, b, c, d, rfl⟩ := list4 hl
    exact ⟨⟨_, rfl, rfl, by simp [scalarGuards, listIf]⟩, ⟨_, rfl, rfl, by simp [scalarGuards, listIf]⟩⟩
  · obtain ⟨a, b, c, d, e, f, rfl⟩ := list6 hl
    exact ⟨⟨_, rfl, rfl, by simp [scalarGuards, listIf]⟩, ⟨_, rfl, rfl, by simp [scalarGuards, listIf]⟩⟩
  · obtain ⟨a, b, c, d, e, f, g, i, rfl⟩ := list8 hl
    exact ⟨⟨_, rfl, rfl, by simp [scalarGuards, listIf]⟩, ⟨_, rfl, rfl, by simp [scalarGuards, listIf]⟩⟩

/-- **C117** `scalar_born`: forward callbacks of both backends and backward callbacks with gradients of the background
show both fields, and the other backward callbacks show the scattered field, each wavefield under the name of its
argument. -/
theorem C117_born {n : ℕ} (h1 : 1 ≤ n) (h3 : n ≤ 3) (l lsc : List α) (hl : l.length = 2 + 2 * n)
    (hsc : lsc.length = 2 + 2 * n) :
    (∃ d, bornShown n (l ++ lsc) = .ok d ∧ Shows d (bornGuards.wfs n) (l ++ lsc)) ∧
    (∃ d, bornShownPy n (l ++ lsc) = .ok d ∧ Shows d (bornGuards.wfs n) (l ++ lsc)) ∧
    (∃ d, bornShownSc n lsc = .ok d ∧ Shows d ((bornGuards.wfs n).drop (2 + 2 * n)) lsc) := by
  interval_cases n
  · obtain ⟨a, b, c, d, rfl⟩ := list4 hl
    obtain ⟨a', b', c', d', rfl⟩ := list4 hsc
    exact ⟨⟨_, rfl, rfl, by simp [bornGuards, listIf]⟩, ⟨_, rfl, rfl, by simp [bornGuards, listIf]⟩,
      ⟨_, rfl, rfl, by simp [bornGuards, listIf]⟩⟩
  · obtain ⟨a, b, c, d, e, f, rfl⟩ := list6 hl
    obtain ⟨a', b', c', d', e', f', rfl⟩ := list6 hsc
    exact ⟨⟨_, rfl, rfl, by simp [bornGuards, listIf]⟩, ⟨_, rfl, rfl, by simp [bornGuards, listIf]⟩,
      ⟨_, rfl, rfl, by simp [bornGuards, listIf]⟩⟩
  · obtain ⟨a, b, c, d, e, f, g, i, rfl⟩ := list8 hl
    obtain ⟨a', b', c', d', e', f', g', i', rfl⟩ := list8 hsc
    exact ⟨⟨_, rfl, rfl, by simp [bornGuards, listIf]⟩, ⟨_, rfl, rfl, by simp [bornGuards, listIf]⟩,
      ⟨_, rfl, rfl, by simp [bornGuards, listIf]⟩⟩

/-- **C117** The models and gradients of `scalar_born`. -/
theorem C117_born_models (v scatter : α) : Shows (bornShownModels v scatter) bornGuards.models [v, scatter] :=
  ⟨rfl, by simp [bornShownModels, bornGuards]⟩

/-- **C117** `acoustic`: callbacks of both backends show each wavefield under the name of its argument, and the models
and gradients as `K` for the bulk modulus and `B` with the name of the axis for the buoyancies. -/
theorem C117_acoustic {n : ℕ} (h1 : 1 ≤ n) (h3 : n ≤ 3) (l : List α) (hl : l.length = 1 + 3 * n) (k : α)
    (buoyancies : List α) (hb : buoyancies.length = n) :
    Shows (acousticShown n l) (acousticGuards.wfs n) l ∧
    (∃ d, acousticShownPy n l = .ok d ∧ Shows d (acousticGuards.wfs n) l) ∧
    Shows (acousticShownModels n (k :: buoyancies)) ("K" :: (["z", "y", "x"].drop (3 - n)).map ("B" ++ ·))
      (k :: buoyancies) := by
  interval_cases n
  · obtain ⟨a, b, c, d, rfl⟩ := list4 hl
    match buoyancies, hb with
    | [x], _ =>
      exact ⟨⟨rfl, by simp [acousticShown, acousticWfNames, acousticGuards, listIf]⟩,
        ⟨_, rfl, rfl, by simp [acousticWfNames, acousticGuards, listIf]⟩,
        ⟨rfl, by simp [acousticShownModels, acousticModelNames]⟩⟩
  · match l, hl, buoyancies, hb with
    | [a, b, c, d, e, f, g], _, [x, y], _ =>
      exact ⟨⟨rfl, by simp [acousticShown, acousticWfNames, acousticGuards, listIf]⟩,
        ⟨_, rfl, rfl, by simp [acousticWfNames, acousticGuards, listIf]⟩,
        ⟨rfl, by simp [acousticShownModels, acousticModelNames]⟩⟩
  · match l, hl, buoyancies, hb with
    | [a, b, c, d, e, f, g, i, j, k], _, [x, y, z], _ =>
      exact ⟨⟨rfl, by simp [acousticShown, acousticWfNames, acousticGuards, listIf]⟩,
        ⟨_, rfl, rfl, by simp [acousticWfNames, acousticGuards, listIf]⟩,
        ⟨rfl, by simp [acousticShownModels, acousticModelNames]⟩⟩

/-! ### Calls that meet the hypotheses -/

example : ∃ d, scalarShown 2 [1, 2, 3, 4, 5, 6] = .ok d ∧ dictGet d "zetay_m1" = some 5 := by
  obtain ⟨⟨d, h, hs⟩, _⟩ := C117_scalar (n := 2) (by decide) (by decide) [1, 2, 3, 4, 5, 6] rfl
  exact ⟨d, h, hs.get (i := 4) (by decide)⟩

example : ∃ d, bornShownPy 1 ([1, 2, 3, 4] ++ [5, 6, 7, 8]) = .ok d ∧ dictGet d "psix_sc_m1" = some 7 := by
  obtain ⟨_, ⟨d, h, hs⟩, _⟩ := C117_born (n := 1) (by decide) (by decide) [1, 2, 3, 4] [5, 6, 7, 8] rfl rfl
  exact ⟨d, h, hs.get (i := 6) (by decide)⟩

example : dictGet (acousticShown 2 [1, 2, 3, 4, 5, 6, 7]) "psi_y_0" = some 6 :=
  (C117_acoustic (by decide) (by decide) [1, 2, 3, 4, 5, 6, 7] rfl 1 [2, 3] rfl).1.get (i := 5) (by decide)

end Dw.Interface
