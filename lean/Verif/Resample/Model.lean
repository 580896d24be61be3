import Mathlib.Analysis.SpecialFunctions.Trigonometric.Basic
import Mathlib.Analysis.SpecialFunctions.Complex.Log
import Verif.Core.Py

/-!
# Resampling in time

Models `cosine_taper_end`, `zero_last_element_of_final_dimension`, `_validate_sample_args`, `upsample` and
`downsample` (`common.py` 1200-1451) for one trace.  `torch.fft.rfft`, `irfft` (with `norm="ortho"`),
`rfftfreq` and `torch.hann_window` are modelled by their documented formulas over ℝ and ℂ.  The arguments
have the documented types, so the TypeErrors of the validation do not occur.
-/

namespace Dw.Resample

open Real

/-- A one-dimensional tensor; entries of `val` from `len` on have no meaning. -/
structure Sig (α : Type) where
  len : ℕ
  val : ℕ → α

/-- `torch.nn.functional.pad(signal, (0, p))`. -/
def Sig.pad {α : Type} [Zero α] (s : Sig α) (p : ℕ) : Sig α :=
  ⟨s.len + p, fun j => if j < s.len then s.val j else 0⟩

/-- `signal[..., :m]`. -/
def Sig.take {α : Type} (s : Sig α) (m : ℕ) : Sig α := ⟨min m s.len, s.val⟩

/-- `torch.fft.rfft(signal, norm="ortho")`. -/
noncomputable def rfft (s : Sig ℝ) : Sig ℂ :=
  ⟨s.len / 2 + 1, fun k => (√s.len : ℂ)⁻¹ *
    ∑ j ∈ Finset.range s.len, (s.val j : ℂ) * Complex.exp (-2 * π * Complex.I * (j * k) / s.len)⟩

/-- Number of bins of the full spectrum of `n` samples that bin `k` of the one-sided spectrum stands
for. -/
def mult (n k : ℕ) : ℝ := if k = 0 ∨ 2 * k = n then 1 else 2

/-- `torch.fft.irfft(signal_f, n=n, norm="ortho")` for an argument with `n // 2 + 1` bins: the other
bins are the complex conjugates; the imaginary parts of bin 0 and, for even `n`, of the last bin are
ignored. -/
noncomputable def irfft (n : ℕ) (f : Sig ℂ) : Sig ℝ :=
  ⟨n, fun j => (√n)⁻¹ * ∑ k ∈ Finset.range (n / 2 + 1),
    mult n k * (f.val k * Complex.exp (2 * π * Complex.I * (j * k) / n)).re⟩

/-- `cosine_taper_end` (`common.py` 1200-1230) for a spectrum and `n_taper ≥ 0`. -/
noncomputable def cosineTaperEnd (f : Sig ℂ) (nTaper : ℕ) : Sig ℂ :=
  let n := min nTaper f.len
  ⟨f.len, fun k => if f.len - n ≤ k then
    f.val k * (((cos ((k - (f.len - n) + 1 : ℕ) / n * π) + 1) / 2 : ℝ) : ℂ) else f.val k⟩

/-- `zero_last_element_of_final_dimension` (`common.py` 1233-1251). -/
def zeroLast (f : Sig ℂ) : Sig ℂ := ⟨f.len, fun k => if k + 1 = f.len then 0 else f.val k⟩

/-- `torch.hann_window(n, periodic=False)`. -/
noncomputable def hann (n j : ℕ) : ℝ := if n = 1 then 1 else (1 - cos (2 * π * j / (n - 1))) / 2

/-- The tapering of the spectrum common to both functions (`common.py` 1346-1350, 1435-1439). -/
noncomputable def taper (freqTaperFrac : ℝ) (f : Sig ℂ) : Sig ℂ :=
  if 0 < freqTaperFrac then cosineTaperEnd f ⌊freqTaperFrac * f.len⌋₊
  else if 1 < f.len then zeroLast f else f

/-- `_validate_sample_args` (`common.py` 1254-1287). -/
noncomputable def validate (stepRatio : ℤ) (freqTaperFrac timePadFrac : ℝ) : Except PyErr Unit :=
  if stepRatio ≤ 0 then .error .valueError
  else if ¬(0 ≤ freqTaperFrac ∧ freqTaperFrac ≤ 1) then .error .valueError
  else if ¬(0 ≤ timePadFrac ∧ timePadFrac ≤ 1) then .error .valueError
  else .ok ()

/-- `int(frac * n) if frac > 0.0 else 0`. -/
noncomputable def nTimePad (frac : ℝ) (n : ℕ) : ℕ := if 0 < frac then ⌊frac * n⌋₊ else 0

/-- `upsample` (`common.py` 1290-1363). -/
noncomputable def upsample (s : Sig ℝ) (stepRatio : ℤ) (freqTaperFrac timePadFrac : ℝ)
    (timeTaper : Bool) : Except PyErr (Sig ℝ) :=
  match validate stepRatio freqTaperFrac timePadFrac with
  | .error e => .error e
  | .ok () =>
    if s.len = 0 ∨ stepRatio = 1 then .ok s else
    let r := stepRatio.toNat
    let p := nTimePad timePadFrac s.len
    let s₁ := if 0 < p then s.pad p else s
    let upNt := s₁.len * r
    let f := rfft s₁
    let f₁ := taper freqTaperFrac ⟨f.len, fun k => f.val k * (√r : ℂ)⟩
    let f₂ := if f₁.len < upNt / 2 + 1 then f₁.pad (upNt / 2 + 1 - f₁.len) else f₁
    let s₂ := irfft upNt f₂
    let s₃ := if 0 < p then s₂.take (s₂.len - p * r) else s₂
    .ok (if timeTaper then ⟨s₃.len, fun j => s₃.val j * hann s₃.len j⟩ else s₃)

/-- `downsample` (`common.py` 1366-1451). -/
noncomputable def downsample (s : Sig ℝ) (stepRatio : ℤ) (freqTaperFrac timePadFrac : ℝ)
    (timeTaper : Bool) (shift : ℝ) : Except PyErr (Sig ℝ) :=
  match validate stepRatio freqTaperFrac timePadFrac with
  | .error e => .error e
  | .ok () =>
    if s.len = 0 ∨ (stepRatio = 1 ∧ shift = 0) then .ok s else
    let r := stepRatio.toNat
    let s₀ : Sig ℝ := if timeTaper then ⟨s.len, fun j => s.val j * hann s.len j⟩ else s
    let p := nTimePad timePadFrac (s.len / r)
    let s₁ := if 0 < p then s₀.pad (p * r) else s₀
    let downNt := s₁.len / r
    let f := taper freqTaperFrac ((rfft s₁).take (downNt / 2 + 1))
    let f₁ : Sig ℂ := if shift ≠ 0 then
        ⟨f.len, fun k => f.val k * Complex.exp (-Complex.I * 2 * π * (k / s₁.len) * shift)⟩ else f
    -- `irfft` to no samples
    if downNt = 0 then .error .runtimeError else
    let y := irfft downNt f₁
    let s₂ : Sig ℝ := ⟨y.len, fun j => y.val j / √r⟩
    .ok (if 0 < p then s₂.take (s₂.len - p) else s₂)

end Dw.Resample
