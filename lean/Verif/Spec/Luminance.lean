import Mathlib.Analysis.SpecialFunctions.Pow.Real
import Verif.Spec.Display

/-!
# Luminance, lightness and contrast, as in the standards
-/

namespace Slate

/-- The sRGB transfer function (IEC 61966-2-1), `v` in `[0, 1]`. -/
noncomputable def srgbLinear (v : ℝ) : ℝ :=
  if v ≤ 0.04045 then v / 12.92 else ((v + 0.055) / 1.055) ^ (2.4 : ℝ)

/-- W3C relative luminance of 8-bit channels. -/
noncomputable def relLuminance (r g b : ℕ) : ℝ :=
  0.2126 * srgbLinear (r / 255) + 0.7152 * srgbLinear (g / 255) + 0.0722 * srgbLinear (b / 255)

/-- W3C contrast ratio of two relative luminances. -/
noncomputable def contrastRatio (x y : ℝ) : ℝ := (max x y + 0.05) / (min x y + 0.05)

/-- CIE 1976 lightness `L*`, in `[0, 100]`, of a relative luminance. -/
noncomputable def cieLightness (y : ℝ) : ℝ :=
  if y ≤ 216 / 24389 then y * (24389 / 27) else 116 * y ^ (1 / 3 : ℝ) - 16

/-- What is assumed of the C library's `pow`: an absolute error of at most `2^-40`
on the arguments that occur. (A double has 53 bits; glibc stays within one unit in
the last place.) -/
def PowOk (pow : ℚ → ℚ → ℚ) : Prop :=
  ∀ x y : ℚ, 0 < x → x ≤ 2 → 0 < y → y ≤ 3 → |(pow x y : ℝ) - (x : ℝ) ^ (y : ℝ)| ≤ 1 / 2 ^ 40

/-- Such functions exist. -/
theorem exists_powOk : ∃ pow, PowOk pow := by
  have h : ∀ x y : ℚ, ∃ q : ℚ, |(q : ℝ) - (x : ℝ) ^ (y : ℝ)| ≤ 1 / 2 ^ 40 := by
    intro x y
    obtain ⟨q, h1, h2⟩ := exists_rat_btwn (show (x : ℝ) ^ (y : ℝ) - 1 / 2 ^ 40 < (x : ℝ) ^ (y : ℝ) by
      have : (0 : ℝ) < 1 / 2 ^ 40 := by positivity
      linarith)
    exact ⟨q, abs_le.mpr ⟨by linarith, by have : (0 : ℝ) < 1 / 2 ^ 40 := by positivity
                                          linarith⟩⟩
  choose f hf using h
  exact ⟨f, fun x y _ _ _ _ => hf x y⟩

end Slate
